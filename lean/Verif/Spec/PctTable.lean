import Verif.Model.PctTable

/-!
# Specification: percentages as shown
-/

namespace MoonPIES

variable {K : Type} [Field K] [LinearOrder K]

/-- Spec: `y` shows `x` with `d` decimals: no number with `d` decimals is closer. -/
def Spec.NearestDec (d : Nat) (x y : K) : Prop :=
  (∃ n : Int, y = (n : K) / 10 ^ d) ∧ ∀ n : Int, |y - x| ≤ |(n : K) / 10 ^ d - x|

/-- Spec: `y` shows the percentage `x`: two decimals below 10, otherwise one, which may be off by the
rounding to two decimals before. -/
structure Spec.PctShown (x y : K) : Prop where
  low : 0 ≤ y
  high : y ≤ 100
  small : x < 1999 / 200 → NearestDec 2 x y
  large : 1999 / 200 ≤ x → (∃ n : Int, y = (n : K) / 10) ∧ |y - x| ≤ 11 / 200

/-- Spec: a column of the table shows the layers `pcts` (percentage of ice, `none` without one): a number
for each layer that has one, and nothing elsewhere. -/
def Spec.ColShown (pcts cells : List (Option K)) : Prop :=
  pcts.length ≤ cells.length ∧
  (∀ (i : Nat) (x : K), pcts[i]? = some (some x) → ∃ y, cells[i]? = some (some y) ∧ PctShown x y) ∧
  ∀ (i : Nat) (y : K), cells[i]? = some (some y) → ∃ x, pcts[i]? = some (some x)

end MoonPIES
