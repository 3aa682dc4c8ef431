import Mathlib.Algebra.Order.Floor.Ring
import Verif.Spec.CannonRef

/-!
# The reference of the tests on columns of whole numbers

`cannon2020_ds01_ice_erosion` (`/repo/test/test_moonpies.py` 274-293) gets a copy of the same integer array.
-/

namespace MoonPIES.Spec

open MoonPIES

variable {K : Type} [Field K] [LinearOrder K] [FloorRing K]

/-- The second loop of the reference on an integer array, which drops fractions when written to. -/
def refIntLoop (t base : Nat) : Nat → K → List ℤ → Except PyErr (List ℤ)
  | n, eroded, ice =>
    if eroded > 0 then
      if t > base then
        match n with
        | 0 => .error .indexError
        | m + 1 => do
          let i := if m ≥ ice.length then m - ice.length else m
          let x ← pyGet ice i
          if (x : K) ≥ eroded then
            refIntLoop t base (m + 1) (0 : K) (ice.set i (if 0 ≤ (x : K) - eroded then ⌊(x : K) - eroded⌋ else
              ⌈(x : K) - eroded⌉))
          else refIntLoop t base m (eroded - (x : K)) (ice.set i 0)
      else .ok ice
    else .ok ice
termination_by n eroded _ => (n, if eroded > 0 then 1 else 0)
decreasing_by
  · simp_wf
    right
    simp_all
  · simp_wf
    left
    omega

/-- The reference on an integer array of ice. -/
def refIntErosion (eroded shield : K) (ice : List ℤ) (t : Nat) (ej : List K) : Except PyErr (List ℤ) := do
  let base ← refBase shield ej t
  refIntLoop t base (t + ice.length + 1) eroded ice

/-- A column of whole numbers as a column of numbers. -/
def asNumbers (l : Except PyErr (List ℤ)) : Except PyErr (List K) := l.map (·.map fun x : ℤ => (x : K))

end MoonPIES.Spec
