import Verif.Spec.LayDown

/-!
# How deep a layer lies
-/

namespace MoonPIES.Spec

variable {K : Type} [Field K] [LinearOrder K]

/-- How much of a layer under `cover` metres of ejecta the events reach: each reaches as far as it goes below the
ejecta that lie on the layer by then.  Sedimentation works before the ejecta of its event arrive, gardening after. -/
def exposure : K → List (Event K) → K
  | _, [] => 0
  | cover, v :: vs => max 0 (v.bsedDepth - cover) + max 0 (v.overturn - (cover + v.ej)) + exposure (cover + v.ej) vs

end MoonPIES.Spec
