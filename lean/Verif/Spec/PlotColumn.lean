import Verif.Model.PlotColumn
import Verif.Spec.PlotStrat

/-!
# Specification vocabulary for the picture of a run
-/

namespace MoonPIES

variable {K : Type} [Field K] [LinearOrder K]

/-- Spec: the layers of a table that appear in its picture: at least `minThick` thick. -/
def Spec.Kept (minThick : K) (table : List (StratRow K)) (r : StratRow K) : Prop :=
  r ∈ table ∧ r.label ≠ "Formation age" ∧ r.label ≠ "Other" ∧ minThick ≤ r.ice + r.ejecta

/-- Spec: `r` is the uppermost layer kept with its base below depth `d`, and no base is at `d`. -/
def Spec.Uppermost (minThick : K) (table : List (StratRow K)) (d : K) (r : StratRow K) : Prop :=
  Spec.Kept minThick table r ∧ 0 < d ∧ d < r.depth ∧
    ∀ r', Spec.Kept minThick table r' → r'.depth < r.depth → r'.depth < d

/-- Spec: the picture of a table.  `hat` gives the hatch of each label. -/
structure Spec.Picture (hash : String → Int) (cdf : SizeTable K) (minThick : K)
    (table : List (StratRow K)) (hat : String → String) (areas : List (Area K)) : Prop where
  /-- a layer has the hatch of the largest of its sources -/
  hatches : ∀ r, Spec.Kept minThick table r → ∀ ns, Spec.Names r.label ns →
    ∃ src, Spec.Largest cdf ns src ∧ Spec.Pattern hash src (hat r.label)
  /-- at each depth one sees the hatch of the uppermost layer kept with its base below -/
  seen : ∀ d r, Spec.Uppermost minThick table d r → hatchAt areas d = some (hat r.label)
  /-- in the colour of the ice percentage of the deepest layer kept with that hatch -/
  colour : ∀ d r, Spec.Uppermost minThick table d r → ∃ r', Spec.Kept minThick table r' ∧
    r.depth ≤ r'.depth ∧ hat r'.label = hat r.label ∧
    (∀ r'', Spec.Kept minThick table r'' → r'.depth < r''.depth → hat r''.label ≠ hat r.label) ∧
    r'.ice + r'.ejecta ≠ 0 ∧
    colourAt areas d = some (100 * r'.ice / (r'.ice + r'.ejecta)) ∧
    ∀ seen, colourAt (recolour seen areas) d = some (100 * r'.ice / (r'.ice + r'.ejecta))
  /-- and nothing below the last layer kept -/
  below : ∀ d, (∀ r, Spec.Kept minThick table r → r.depth ≤ d) →
    hatchAt areas d = none ∧ colourAt areas d = none

end MoonPIES
