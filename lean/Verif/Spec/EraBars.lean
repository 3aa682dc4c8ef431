import Verif.Model.EraBars

/-!
# Specification vocabulary for the bars by era
-/

namespace MoonPIES.Spec

/-- The eras in the order of the figure, with their youngest and oldest age in years. -/
noncomputable def eraTable : List (String × ℝ × ℝ) :=
  [("Pre-Nec.", 3.97e9, 4.26e9), ("Nec.", 3.83e9, 3.97e9), ("Imb.", 3.2e9, 3.83e9),
   ("Era.", 1.1e9, 3.2e9), ("Cop.", 0, 1.1e9)]

/-- The entries of a column at times after `lo` and not after `hi`. -/
noncomputable def between (time col : List ℝ) (lo hi : ℝ) : List ℝ :=
  ((time.zip col).filter (fun p => decide (lo < p.1 ∧ p.1 ≤ hi))).map (·.2)

end MoonPIES.Spec
