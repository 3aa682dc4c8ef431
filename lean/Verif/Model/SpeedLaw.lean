import Verif.Model.Impact
import Mathlib.Probability.Distributions.Gaussian.Real
import Mathlib.MeasureTheory.Integral.IntervalIntegral.Basic

/-!
# Distributions of impact speeds

`/repo/moonpies/moonpies.py` 2027-2051 (`asteroid_speed_rv`, `comet_speed_rv`): the distribution functions
of `scipy.stats.truncnorm`, and of the mixture.  They are drawn by
`/repo/notebooks/figure_scripts/plot_figs.py` 1049-1108 (`ast_comet_vels`).
-/

namespace MoonPIES

open MeasureTheory Set

/-- `norm.pdf`. -/
noncomputable def normPdf (y : ℝ) : ℝ := Real.exp (-(y ^ 2) / 2) / √(2 * Real.pi)

/-- `norm.cdf`. -/
noncomputable def normCdf (y : ℝ) : ℝ := ∫ t in Iic y, normPdf t

/-- `norm.cdf` of the upper bound, which may be `inf`. -/
noncomputable def normCdfTop : Option ℝ → ℝ
  | none => 1
  | some b => normCdf b

open Classical in
/-- `stats.truncnorm(a, b, loc, scale)`: `pdf`, `cdf` and `sf` at `x` are those of the standard distribution
at `(x - loc) / scale`, the former divided by `scale`. -/
noncomputable def truncnormRv (a : ℝ) (b : Option ℝ) (loc scale : ℝ) : SubModel ℝ where
  pdf x := let y := (x - loc) / scale
    if a ≤ y ∧ ∀ b', b = some b' → y ≤ b' then normPdf y / (normCdfTop b - normCdf a) / scale else 0
  cdf x := let y := (x - loc) / scale
    if y < a then 0 else if ∃ b', b = some b' ∧ b' < y then 1
    else (normCdf y - normCdf a) / (normCdfTop b - normCdf a)
  sf x := let y := (x - loc) / scale
    if y < a then 1 else if ∃ b', b = some b' ∧ b' < y then 0
    else (normCdfTop b - normCdf y) / (normCdfTop b - normCdf a)

/-- `asteroid_speed_rv` (moonpies.py:2027-2035). -/
noncomputable def asteroidRv (c : SpeedCfg ℝ) : SubModel ℝ :=
  truncnormRv ((c.escapeVel - c.speedMean) / c.speedSd) none c.speedMean c.speedSd

/-- `comet_speed_rv` (moonpies.py:2038-2051). -/
noncomputable def cometRv (c : SpeedCfg ℝ) (jfcFrac lpcFrac : ℝ) : Except PyErr (Mixture ℝ) :=
  mkMixture [truncnormRv (-c.cometMin / c.jfcSd) (some (c.cometMax / c.jfcSd)) c.jfcMean c.jfcSd,
    truncnormRv (-c.cometMin / c.lpcSd) (some (c.cometMax / c.lpcSd)) c.lpcMean c.lpcSd]
    (some [jfcFrac, lpcFrac])

end MoonPIES
