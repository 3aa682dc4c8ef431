import Mathlib.Data.Rat.Floor
import Verif.Model.IntCols
import Verif.Lemmas.Dig

/-!
# C145: the gardening that the tests expect
-/

namespace MoonPIES

open Spec

set_option linter.unusedSectionVars false

variable {K : Type} [Field K] [LinearOrder K] [IsStrictOrderedRing K]

/-- The four columns of `test_garden_ice_column` under the rule it expects. -/
example : digColumn [10] [10] 0 (10 : ℚ) = [10] ∧ digColumn [10] [5] 0 (3 : ℚ) = [10] ∧
    digColumn [10, 10] [5, 0] 1 (15 : ℚ) = [10, 0] ∧ digColumn [6, 4, 2] [0, 2, 1] 2 (10 : ℚ) = [5, 0, 0] := by
  decide +kernel

/-- **C145** the test fails: the code takes the ice of all layers in its third and fourth column, as integer arrays
and as floating-point numbers. -/
theorem C145_tests_refuted :
    gardenIntColumn [10, 10] [5, 0] 1 (15 : ℚ) 1 = .ok [0, 0] ∧
    gardenIceColumn (fun x => x) [10, 10] [5, 0] 1 (15 : ℚ) 1 = .ok [0, 0] ∧
    gardenIntColumn [6, 4, 2] [0, 2, 1] 2 (10 : ℚ) 1 = .ok [0, 0, 0] ∧
    gardenIceColumn (fun x => x) [6, 4, 2] [0, 2, 1] 2 (10 : ℚ) 1 = .ok [0, 0, 0] := by decide +kernel

/-- **C145** by the expected rule no more ice is lost than the depth. -/
theorem C145_bound (depth : K) : ∀ (l : List (K × K)) (d : K), (∀ p ∈ l, 0 ≤ p.1 ∧ 0 ≤ p.2) →
    (l.map (·.1)).sum - ((dig depth d l).map (·.1)).sum ≤ max 0 (depth - d)
  | [], d, _ => by simp [dig]
  | (x, e) :: l, d, h => by
    obtain ⟨hx, he⟩ := h (x, e) (by simp)
    rw [dig]
    split
    · rename_i hd
      have ih := C145_bound depth l (d + e + x) (fun p hp => h p (by simp [hp]))
      simp only [List.map_cons, List.sum_cons]
      refine le_max_of_le_right ?_
      rcases le_total x (depth - (d + e)) with hc | hc
      · rw [min_eq_left hc]
        rw [max_eq_right (by linarith)] at ih
        simp only [] at he
        linarith
      · rw [min_eq_right hc]
        rw [max_eq_left (by linarith)] at ih
        simp only [] at he
        linarith
    · rw [sub_self]
      exact le_max_left _ _

/-- **C145** the code takes at least as much from every layer as the expected rule. -/
theorem C145_more (ice ej : List K) (t : Nat) (depth : K) (hi : t < ice.length) (hj : t < ej.length)
    (h0 : ∀ x ∈ ice, 0 ≤ x) (h1 : ∀ x ∈ ej, 0 ≤ x) :
    ∃ ice', gardenIceColumn (fun x => x) ice ej t depth 1 = .ok ice' ∧
      List.Forall₂ (· ≤ ·) ice' (digColumn ice ej t depth) := by
  refine ⟨_, garden_dig ice ej t depth hi hj, ?_⟩
  · unfold digColumn
    refine List.rel_append ?_ (List.forall₂_same.2 fun x _ => le_rfl)
    refine List.rel_reverse ?_
    refine List.rel_map (R := fun p q : K × K => p.1 ≤ q.1) (fun _ _ h => h) ?_
    refine sink_dig depth _ 0 0 le_rfl ?_
    intro p hp
    obtain ⟨x, e⟩ := p
    have := List.of_mem_zip (List.mem_reverse.1 hp)
    exact ⟨h0 x (List.mem_of_mem_take this.1), h1 e (List.mem_of_mem_take this.2)⟩

/-- **C145** code and rule agree while the uppermost ice is at least twice as thick as gardening reaches into it: `l`
are the layers of ejecta without ice on top, then comes the first layer with ice. -/
theorem C145_same (ice ej : List K) (t : Nat) (depth : K) (hi : t < ice.length) (hj : t < ej.length)
    (l r : List (K × K)) (x e : K) (hp : ((ice.take (t + 1)).zip (ej.take (t + 1))).reverse = l ++ (x, e) :: r)
    (h0 : ∀ p ∈ l, p.1 = 0) (hx : 2 * (depth - ((l.map (·.2)).sum + e)) ≤ x) :
    gardenIceColumn (fun x => x) ice ej t depth 1 = .ok (digColumn ice ej t depth) := by
  rw [garden_dig ice ej t depth hi hj]
  unfold digColumn pileOf
  rw [hp, sink_eq_dig depth l x e 0 r h0 (by rw [zero_add]; exact hx)]

/-- Half a metre of gardening in a metre of ice under ejecta: both leave half of it; in less ice the code goes on to
the next layer, the expected rule does not. -/
example : gardenIceColumn (fun x => x) [1, 1, 0] [0, 1 / 4, 1 / 4] 2 (1 : ℚ) 1 = .ok [1, 1 / 2, 0] ∧
    digColumn [1, 1, 0] [0, 1 / 4, 1 / 4] 2 (1 : ℚ) = [1, 1 / 2, 0] ∧
    gardenIceColumn (fun x => x) [1, 3 / 4, 0] [0, 1 / 4, 1 / 4] 2 (1 : ℚ) 1 = .ok [3 / 4, 1 / 4, 0] ∧
    digColumn [1, 3 / 4, 0] [0, 1 / 4, 1 / 4] 2 (1 : ℚ) = [1, 1 / 4, 0] := by decide +kernel

end MoonPIES
