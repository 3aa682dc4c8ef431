import Verif.Model.Scaling
import Verif.Model.RunCfg

/-!
# The figure of crater scaling (`crater_scaling`)
-/

namespace MoonPIES

/-- The two points of one line: `np.geomspace(dmin, dmax, 2)` holds the two ends, drawn in kilometres
against `mp.diam2len(diams, 20000, regime, rcfg)` (plot_figs.py:209, 235-242). -/
noncomputable def scaleLine (cfg : ScaleCfg) (regime : String) (dmin dmax : ℝ) :
    Except PyErr (List (ℝ × ℝ)) := do
  let lengths ← diam2len cfg [dmin, dmax] 20000 regime
  .ok (([dmin, dmax].map (fun d => d / 1e3)).zip lengths)

/-- The lines of one configuration: all regimes but `a` and `b` (plot_figs.py:232-242); the
configuration holds no regime `a` here. -/
noncomputable def scaleLines (c : RunCfg) : Except PyErr (List (String × List (ℝ × ℝ))) :=
  (c.impact_regimes.filter (fun p => p.1 ≠ "b")).mapM (fun p => do
    let l ← scaleLine c.scale p.1 p.2.1 p.2.2.1
    .ok (p.1, l))

/-- The regimes proposed there (plot_figs.py:217-227). -/
noncomputable def newRegimes : PyDict (ℝ × ℝ × ℝ × ℝ) :=
  [("b", 0.01, 3, 1e-4, -3.7), ("c", 250, 1.5e3, 1, -3.82), ("d", 1.5e3, 15e3, 1e2, -1.8),
    ("e", 19e3, 300e3, 1e3, -1.8)]

/-- The basins: `mp.diam2len(dfb.diam, speed, 'f', cfg)` (plot_figs.py:245-246). -/
noncomputable def scaleBasins (cfg : ScaleCfg) (diams : List ℝ) : Except PyErr (List (ℝ × ℝ)) := do
  let lengths ← diam2len cfg diams 20000 "f"
  .ok ((diams.map (fun d => d / 1e3)).zip lengths)

end MoonPIES
