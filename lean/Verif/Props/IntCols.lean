import Mathlib.Data.Rat.Floor
import Verif.Lemmas.IntCols
import Verif.Props.CannonRef

/-!
# C144: columns of whole numbers round the depth of gardening up
-/

namespace MoonPIES

open Spec

set_option linter.unusedSectionVars false

variable {K : Type} [Field K] [LinearOrder K] [IsStrictOrderedRing K] [FloorRing K]

/-- **C144** gardening an integer column under integer ejecta does what it does to the same numbers at the depth
rounded up, errors included. -/
theorem C144_garden (ice ej : List ℤ) (t : Int) (depth : K) :
    asNumbers (gardenIntColumn ice ej t depth 1) =
      gardenIceColumn (fun x => x) (ice.map fun x : ℤ => (x : K)) (ej.map fun x : ℤ => (x : K)) t (⌈depth⌉ : K) 1 := by
  have := gardenInt_loop ej depth (2 * t + 2).toNat 0 ice
  rw [Int.cast_zero] at this
  exact this

/-- **C144** the erosion of Cannon et al. takes the depth rounded up from an integer column. -/
theorem C144_erode (ice : List ℤ) (ej : List K) (t : Nat) (ed shield : K) :
    asNumbers (erodeIntCannon ice ej t ed shield) =
      erodeIceCannon (fun x => x) (ice.map fun x : ℤ => (x : K)) ej t (⌈ed⌉ : K) shield :=
  erodeInt_loop _ _ _ _ _

/-- **C144** so does the reference of the tests. -/
theorem C144_reference (ice : List ℤ) (ej : List K) (t : Nat) (ed shield : K) :
    asNumbers (refIntErosion ed shield ice t ej) =
      refErosion (⌈ed⌉ : K) shield (ice.map fun x : ℤ => (x : K)) t ej := by
  unfold refIntErosion refErosion
  rw [List.length_map]
  cases refBase shield ej t with
  | error e => rfl
  | ok b => exact refInt_loop _ _ _ _ _

/-- **C144** comparing on integer columns cannot tell one depth of up to a metre from another: the code with any such
depth agrees with the reference, which has 0.1 m, as long as there is a metre of ice. -/
theorem C144_blind (ice : List ℤ) (ej : List K) (t : Nat) (ed shield : K) (h0 : 0 < ed) (h1 : ed ≤ 1) (ht : 0 < t)
    (hi : t < ice.length) (hj : t < ej.length) (hn : ∀ x ∈ ice, 0 ≤ x)
    (hs : 1 ≤ seg (ice.map fun x : ℤ => (x : K)) 0 (t + 1)) :
    erodeIntCannon ice ej t ed shield = refIntErosion (1 / 10) shield ice t ej := by
  have e1 : ⌈ed⌉ = 1 := by
    rw [Int.ceil_eq_iff]
    push_cast
    exact ⟨by linarith, h1⟩
  have e2 : ⌈(1 / 10 : K)⌉ = 1 := by
    rw [Int.ceil_eq_iff]
    push_cast
    constructor <;> norm_num
  apply asNumbers_inj (K := K)
  rw [C144_erode, C144_reference, e1, e2, Int.cast_one]
  refine C108_gardening_partial _ _ _ _ _ ht (by simpa using hi) hj ?_ hs
  intro x hx
  obtain ⟨z, hz, rfl⟩ := List.mem_map.1 hx
  exact_mod_cast hn z hz

/-- The column of `test_erode_ice_cannon_zero_ejecta`: a metre is lost, where the same column of floating-point
numbers loses 0.1 m.  The depths 0.1 m and 0.9 m give the same. -/
example : erodeIntCannon [1, 1] [0, 0] 1 (1 / 10 : ℚ) (2 / 5) = .ok [1, 0] ∧
    erodeIceCannon (fun x => x) [1, 1] [0, 0] 1 (1 / 10 : ℚ) (2 / 5) = .ok [1, 9 / 10] ∧
    erodeIntCannon [1, 1] [0, 0] 1 (9 / 10 : ℚ) (2 / 5) = refIntErosion (1 / 10 : ℚ) (2 / 5) [1, 1] 1 [0, 0] := by
  refine ⟨by decide +kernel, by decide +kernel, ?_⟩
  exact C144_blind _ _ _ _ _ (by norm_num) (by norm_num) (by decide) (by decide) (by decide) (by decide)
    (by decide +kernel)

/-- A depth that is no whole number: a metre more is lost than from floating-point numbers. -/
example : gardenIntColumn [6, 4] [0, 2] 1 (13 / 2 : ℚ) 1 = .ok [1, 0] ∧
    gardenIceColumn (fun x => x) [6, 4] [0, 2] 1 (13 / 2 : ℚ) 1 = .ok [3 / 2, 0] := by decide +kernel

end MoonPIES
