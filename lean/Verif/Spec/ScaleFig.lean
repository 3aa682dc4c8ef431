import Mathlib.Analysis.SpecialFunctions.Log.Basic

/-!
# Straight lines on axes with logarithmic scales
-/

namespace MoonPIES.Spec

/-- `r` is on the straight line from `p` to `q` when both axes are logarithmic. -/
def OnLogLine (p q r : ℝ × ℝ) : Prop :=
  ∃ s, 0 ≤ s ∧ s ≤ 1 ∧ Real.log r.1 = (1 - s) * Real.log p.1 + s * Real.log q.1 ∧
    Real.log r.2 = (1 - s) * Real.log p.2 + s * Real.log q.2

end MoonPIES.Spec
