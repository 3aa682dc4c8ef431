import Verif.Model.LayerFig
import Verif.Spec.Agg

/-!
# What the figure of ice layers should show

For C117.
-/

namespace MoonPIES.Spec

variable {K : Type} [Field K] [LinearOrder K] [FloorRing K]

/-- A layer of a named run with ice and depth of more than 5 cm. -/
def DrawnLayer (names : List String) (r : String × LayerRow K) : Prop :=
  r.1 ∈ names ∧ (∃ x, r.2.ice = some x ∧ 1 / 20 < x) ∧ (∃ x, r.2.depth = some x ∧ 1 / 20 < x) ∧
    r.2.time ≠ none

/-- `y` is `x` to the nearest 10 cm, and at least 10 cm. -/
def Decimetres (x y : K) : Prop := |y - x| ≤ 1 / 20 ∧ ∃ n : Int, 1 ≤ n ∧ y = n / 10

/-- The row `k` of the figure shows the layer `r`. -/
structure Shows (names news : List String) (r : String × LayerRow K) (k : KdeRow K) : Prop where
  trap : k.coldtrap = r.2.coldtrap
  run : RenamedTo names news r.1 k.runs
  ice : ∃ x, r.2.ice = some x ∧ Decimetres x k.ice
  depth : ∃ x, r.2.depth = some x ∧ Decimetres x k.depth
  time : r.2.time = some k.time
  /-- the depth of the top of the ice -/
  top : ∀ i d, r.2.ice = some i → r.2.depth = some d → i ≤ d → |k.top - (d - i)| ≤ 1 / 10
  /-- it is never above 10 cm -/
  topMin : 1 / 10 ≤ k.top

end MoonPIES.Spec
