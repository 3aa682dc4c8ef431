import Verif.Model.Config
import Mathlib.Data.Real.Basic
import Mathlib.Algebra.BigOperators.Group.List.Basic

/-!
# The fit behind `ejecta_temp_dist_params_cold` and `_warm`

`/repo/notebooks/bsed_temp_fernandes_artemieva.ipynb`, cell 3: temperatures of ejecta against
distance from Imbrium, read off a figure of Fernandes and Artemieva (2012), and a quadratic fit
whose coefficients are defaults of `/repo/moonpies/config.py` 191-192.
-/

namespace MoonPIES

/-- `np.polyfit(x, y, 2)`: the solution of the normal equations by Cramer's rule, highest power
first, for at least three different abscissae. -/
noncomputable def polyfit2 (pts : List (ℝ × ℝ)) : ℝ × ℝ × ℝ :=
  let s4 := (pts.map fun p => p.1 ^ 4).sum
  let s3 := (pts.map fun p => p.1 ^ 3).sum
  let s2 := (pts.map fun p => p.1 ^ 2).sum
  let s1 := (pts.map fun p => p.1).sum
  let s0 : ℝ := pts.length
  let t2 := (pts.map fun p => p.1 ^ 2 * p.2).sum
  let t1 := (pts.map fun p => p.1 * p.2).sum
  let t0 := (pts.map fun p => p.2).sum
  let det := s4 * (s2 * s0 - s1 * s1) - s3 * (s3 * s0 - s1 * s2) + s2 * (s3 * s1 - s2 * s2)
  let da := t2 * (s2 * s0 - s1 * s1) - s3 * (t1 * s0 - s1 * t0) + s2 * (t1 * s1 - s2 * t0)
  let db := s4 * (t1 * s0 - s1 * t0) - t2 * (s3 * s0 - s1 * s2) + s2 * (s3 * t0 - t1 * s2)
  let dc := s4 * (s2 * t0 - t1 * s1) - s3 * (s3 * t0 - t1 * s2) + t2 * (s3 * s1 - s2 * s2)
  (da / det, db / det, dc / det)

/-- `np.poly1d` of three coefficients. -/
noncomputable def poly2 (q : ℝ × ℝ × ℝ) (x : ℝ) : ℝ := q.1 * x ^ 2 + q.2.1 * x + q.2.2

/-- `fernandes_dist` [km] (cell 3). -/
noncomputable def fernandesDist : List ℝ := [1400, 2040, 2825, 3675, 4500, 5200]
/-- `fernandes_cold` [K] (cell 3). -/
noncomputable def fernandesCold : List ℝ := [260, 260, 300, 350, 480, 500]
/-- `fernandes_warm` [K] (cell 3). -/
noncomputable def fernandesWarm : List ℝ := [420, 420, 440, 460, 540, 600]

/-- `d_imb` [m] (cell 3). -/
noncomputable def dImb : ℝ := 769 * 1e3

/-- `crad = fernandes_dist / (d_imb/2)` (cell 3): km divided by m. -/
noncomputable def fernandesCrad : List ℝ := fernandesDist.map fun d => d / (dImb / 2)

/-- `pcold` and `pwarm` (cell 3). -/
noncomputable def fernandesFit (temps : List ℝ) : ℝ × ℝ × ℝ := polyfit2 (fernandesCrad.zip temps)

/-- The dashed curve: `ax.plot(x, f(xrad))` with `x = dist / 1e3` and `xrad = x / (d_imb/2)` (cell 3)
for distances `dist` [m]. -/
noncomputable def fernandesCurve (temps dist : List ℝ) : List (ℝ × ℝ) :=
  dist.map fun m => (m / 1e3, poly2 (fernandesFit temps) (m / 1e3 / (dImb / 2)))

end MoonPIES
