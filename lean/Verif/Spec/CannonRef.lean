import Mathlib.Algebra.Order.Field.Basic
import Verif.Model.Basic

/-!
# The impact gardening of Cannon et al. (2020), as given by the test suite

`/repo/test/test_moonpies.py` 274-293 (`cannon2020_ds01_ice_erosion`), the reference the tests compare
`erode_ice_cannon` with.
-/

namespace MoonPIES.Spec

open MoonPIES

variable {K : Type} [Field K] [LinearOrder K]

/-- The first loop: the last time up to `t` with ejecta above the shield, at first 0. -/
def refBase (shield : K) (ej : List K) (t : Nat) : Except PyErr Nat :=
  (List.range (t + 1)).foldlM (fun b i => do
    let e ← pyGet ej i
    .ok (if e > shield then i else b)) 0

/-- The second loop.  The first argument is `layer + len(totalIceS) + 1`: Python counts negative indices
from the end and raises `IndexError` below `-len(totalIceS)`. -/
def refLoop (t base : Nat) : Nat → K → List K → Except PyErr (List K)
  | n, eroded, ice =>
    if eroded > 0 then
      if t > base then
        match n with
        | 0 => .error .indexError
        | m + 1 => do
          let i := if m ≥ ice.length then m - ice.length else m
          let x ← pyGet ice i
          if x ≥ eroded then refLoop t base (m + 1) 0 (ice.set i (x - eroded))
          else refLoop t base m (eroded - x) (ice.set i 0)
      else .ok ice
    else .ok ice
termination_by n eroded _ => (n, if eroded > 0 then 1 else 0)
decreasing_by
  · simp_wf
    right
    simp_all
  · simp_wf
    left
    omega

/-- The whole function; 0.1 and 0.4 m are written in the reference. -/
def refErosion (eroded shield : K) (ice : List K) (t : Nat) (ej : List K) : Except PyErr (List K) := do
  let base ← refBase shield ej t
  refLoop t base (t + ice.length + 1) eroded ice

end MoonPIES.Spec
