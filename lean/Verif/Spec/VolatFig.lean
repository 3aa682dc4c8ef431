import Verif.Model.Bsed
import Mathlib.Data.Real.Basic

/-!
# What the figure of volatilized fractions is to show
-/

namespace MoonPIES.Spec

/-- The melt table, completed by nothing volatilized at 100 K, has `v` percent at temperature `T` and
ejecta fraction `p` (percent). -/
def Tabulated (t : MeltTable ℝ) (T p v : ℝ) : Prop :=
  ∃ r ∈ t.rows, p * (1 + r.1) = 100 ∧
    ((T = 100 ∧ v = 0) ∨ ∃ j : Nat, t.temps[j]? = some T ∧ ∃ f, r.2[j]? = some f ∧ v = 100 * f)

/-- `v` is the value of a tabulated point that is nearest to `(x, y)` in both coordinates. -/
def NearestValue (t : MeltTable ℝ) (x y v : ℝ) : Prop :=
  ∃ T p, Tabulated t T p v ∧ ∀ T' p' v', Tabulated t T' p' v' → |T - x| ≤ |T' - x| ∧ |p - y| ≤ |p' - y|

/-- A table with the temperatures of the script that makes it, 110, 115, ..., 510 K, for 40 ejecta
fractions that differ by at most `ε` from 100, 97.5, ..., 2.5 %, of which the first is 100 % and
the others are less. -/
structure ScriptGrid (ε : ℝ) (t : MeltTable ℝ) : Prop where
  temps : t.temps = (List.range 81).map fun j : Nat => (110 + 5 * j : ℝ)
  count : t.rows.length = 40
  full : ∀ r ∈ t.rows, r.2.length = 81
  ratio : ∀ r ∈ t.rows, 0 ≤ r.1
  first : ∃ r, t.rows[0]? = some r ∧ r.1 = 0
  pct : ∀ (i : Nat) r, t.rows[i]? = some r → |100 / (1 + r.1) - (100 - 2.5 * i)| ≤ ε

/-- `lo` and `hi` are the ends of the range of the ejecta fractions (percent) at the mixing ratios
`m`. -/
def PctRange (m : ℝ → Prop) (lo hi : ℝ) : Prop :=
  (∀ x, m x → lo ≤ 100 / (1 + x) ∧ 100 / (1 + x) ≤ hi) ∧
  (∃ x, m x ∧ lo = 100 / (1 + x)) ∧ ∃ x, m x ∧ hi = 100 / (1 + x)

end MoonPIES.Spec
