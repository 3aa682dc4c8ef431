import Verif.Model.Retention
import Verif.Model.TimeArray

/-!
# The figure of ice retention

`/repo/notebooks/figure_scripts/plot_figs.py` 1111-1149 (`ice_retention`).
-/

namespace MoonPIES

/-- The data of Ong et al. (plot_figs.py:1121-1122): speed in km/s and fraction. -/
def ongData : List (ℚ × ℚ) := [(10, 1), (15, 1.97e-1), (30, 1.47e-2), (45, 1.93e-3), (60, 6.60e-6)]

/-- The curves of the figure: label, mode, comet. -/
def retCurves : List (String × String × Bool) := [("Cannon et al. (2020)", "cannon", false),
  ("This work, asteroid", "moonpies", false), ("This work, comet", "moonpies", true)]

/-- `ice_retention` (plot_figs.py:1111-1149): label and points of each curve, then those of the data. -/
noncomputable def retFigure : Except PyErr (List (String × List (ℝ × ℝ))) := do
  let v ← linspace (0 : ℝ) 70 7000
  .ok (retCurves.map (fun c => (c.1, v.map fun v => (v, iceRetention c.2.1 c.2.2 (v * 1e3)))) ++
    [("Ong et al. (2010)", ongData.map fun p => ((p.1 : ℝ), (p.2 : ℝ)))])

end MoonPIES
