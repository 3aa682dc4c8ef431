import Mathlib.Algebra.Order.Field.Basic

/-!
# Laying down a column event by event
-/

namespace MoonPIES.Spec

variable {K : Type} [Field K] [LinearOrder K]

/-- What happens to a cold trap in a timestep: the ice and ejecta it gets, and how ice is lost. -/
structure Event (K : Type) where
  /-- ice delivered -/
  ice : K
  /-- ejecta arriving -/
  ej : K
  /-- depth of impact gardening -/
  overturn : K
  /-- depth of ballistic sedimentation -/
  bsedDepth : K
  /-- fraction of ice lost by ballistic sedimentation -/
  bsedFrac : K

/-- Working a pile of layers, each ice under ejecta, from the top: `d` metres lie above.  The fraction `eff` of
the ice of each layer is lost, but no more than fits above `depth`. -/
def sink (depth eff : K) : K → List (K × K) → List (K × K)
  | _, [] => []
  | d, (x, e) :: l =>
    if d < depth ∧ d + e < depth then
      (x - min (x * eff) (depth - (d + e)), e) ::
        sink depth eff (d + e + (x - min (x * eff) (depth - (d + e)))) l
    else (x, e) :: l

/-- The layers after the events, newest on top: in each, ballistic sedimentation works the pile as it is, then
the new ice and ejecta are laid on top, then gardening works the whole pile. -/
def layDown : List (K × K) → List (Event K) → List (K × K)
  | l, [] => l
  | l, v :: vs => layDown (sink v.overturn 1 0 ((v.ice, v.ej) :: sink v.bsedDepth v.bsedFrac 0 l)) vs

/-- The same with the new ice laid down first in each event. -/
def layDownFirst : List (K × K) → List (Event K) → List (K × K)
  | l, [] => l
  | l, v :: vs => layDownFirst (sink v.overturn 1 0 (sink v.bsedDepth v.bsedFrac 0 ((v.ice, v.ej) :: l))) vs

end MoonPIES.Spec
