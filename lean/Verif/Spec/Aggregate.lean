import Verif.Model.Plot

/-!
# Specifications for the aggregation of stratigraphy files
-/

namespace MoonPIES.Spec

variable {K : Type} [Field K] [LinearOrder K]

/-- A table of layers, deepest first, that do not overlap: the ice of a layer lies directly above
its base and every later layer has its base above that ice. -/
structure Layered (rows : List (AggRow K)) : Prop where
  order : rows.Pairwise (fun lo up => up.depth ≤ lo.depth - lo.ice)
  nonneg : ∀ r ∈ rows, 0 ≤ r.ice

/-- Ice above depth `d`: each layer's ice fills the depths from `depth - ice` to `depth`. -/
def iceAbove (d : K) (rows : List (AggRow K)) : K :=
  (rows.map (fun r => max 0 (min r.ice (d - (r.depth - r.ice))))).sum

end MoonPIES.Spec
