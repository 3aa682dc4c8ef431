import Verif.Props.Dists
import Verif.Model.Main
import Verif.Spec.AgesFig

/-!
# Craters that reach no cold trap
-/

namespace MoonPIES.Spec

/-- The crater or basin `r` is not a cold trap, and every cold trap of `others` lies inside it or beyond its
ejecta blanket. -/
structure ReachesNone (c : RunCfg) (others : CraterTable) (r : CraterAge ℝ CraterCols) : Prop where
  notTrap : r.rest.crater.cname ∉ c.coldtrap_names
  far : ∀ t ∈ others, t.rest.crater.cname ∈ c.coldtrap_names → ∀ p, t.rest.crater.psr = some p →
    surfaceDist r.rest.crater p.1 p.2 ≤ r.rest.crater.rad ∨
    (0 ≤ thresholdOf c.ej r.rest.crater ∧
      thresholdOf c.ej r.rest.crater * r.rest.crater.rad ≤ surfaceDist r.rest.crater p.1 p.2)

/-- Temperature of the ejecta of a crater or of a basin. -/
noncomputable def ejTemp (c : RunCfg) (isbasin : Bool) : ℝ :=
  if isbasin then
    (if c.basin_ejecta_temp_warm then c.basin_ejecta_temp_init_warm else c.basin_ejecta_temp_init_cold)
  else c.polar_ejecta_temp_init

/-- Its ejecta are as warm as those of another crater of the table, or as a column of the melt table. -/
def FamiliarTemp (c : RunCfg) (melt : MeltTable ℝ) (others : CraterTable) (r : CraterAge ℝ CraterCols) : Prop :=
  (∃ q ∈ others, q.rest.crater.isbasin = r.rest.crater.isbasin) ∨ ejTemp c r.rest.crater.isbasin ∈ melt.temps

/-- It brings no ice: it is not a basin made by a comet or by a hydrated asteroid. -/
def BringsNoIce (r : CraterAge ℝ CraterCols) : Prop :=
  r.rest.crater.isbasin = true → r.rest.icy ≠ "comet" ∧ r.rest.icy ≠ "hyd_ctype"

/-- A row that matters: a cold trap, one that reaches a cold trap, or a basin that brings ice. -/
def Matters (c : RunCfg) (r : CraterAge ℝ CraterCols) : Prop :=
  r.rest.crater.cname ∈ c.coldtrap_names ∨ Hits c.coldtrap_names r.rest.crater.cname ∨ ¬ BringsNoIce r

end MoonPIES.Spec
