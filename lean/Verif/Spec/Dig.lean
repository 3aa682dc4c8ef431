import Mathlib.Algebra.Order.Field.Basic

/-!
# Gardening as its test expects it

The columns in `test_garden_ice_column` (`/repo/test/test_moonpies.py` 462-497) come out when all ice of a layer
counts toward the depth, as the comment in the code says (`/repo/moonpies/moonpies.py` 1482).
-/

namespace MoonPIES.Spec

variable {K : Type} [Field K] [LinearOrder K]

/-- Working a pile of layers, each ice under ejecta, from the top down to `depth`: `d` metres lie above, ejecta or
ice, lost or not. -/
def dig (depth : K) : K → List (K × K) → List (K × K)
  | _, [] => []
  | d, (x, e) :: l =>
    if d < depth ∧ d + e < depth then (x - min x (depth - (d + e)), e) :: dig depth (d + e + x) l
    else (x, e) :: l

/-- The column of ice, oldest first, after digging through its layers up to time index `t`. -/
def digColumn (ice ej : List K) (t : Nat) (depth : K) : List K :=
  ((dig depth 0 ((ice.take (t + 1)).zip (ej.take (t + 1))).reverse).map (·.1)).reverse ++ ice.drop (t + 1)

end MoonPIES.Spec
