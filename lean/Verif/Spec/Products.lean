import Verif.Model.RunCfg
import Mathlib.Analysis.SpecialFunctions.Pow.Real

/-!
# Settings traded against each other
-/

namespace MoonPIES.Spec

/-- Cold traps `k` times as large for ice `k` times less dense. -/
noncomputable def tradeArea (k : ℝ) (c : RunCfg) : RunCfg :=
  { c with coldtrap_area_H2O := k * c.coldtrap_area_H2O, coldtrap_area_CO2 := k * c.coldtrap_area_CO2,
           ice_density := c.ice_density / k }

/-- `k` times as many C-types, hydrated `k` times less often. -/
noncomputable def tradeCtype (k : ℝ) (c : RunCfg) : RunCfg :=
  { c with ctype_frac := k * c.ctype_frac, ctype_hydrated := c.ctype_hydrated / k }

/-- `k` times the volume of magma, `m` times as dense, with `k m` times less ice in it. -/
noncomputable def tradeMagma (k m : ℝ) (c : RunCfg) : RunCfg :=
  { c with volc_total_vol := k * c.volc_total_vol, volc_magma_density := m * c.volc_magma_density,
           volc_ice_ppm := c.volc_ice_ppm / (k * m) }

/-- `10 ^ k` times as many impactors on Earth per impactor on the Moon, for as many more on Earth. -/
noncomputable def tradeBrown (k : ℝ) (c : RunCfg) : RunCfg :=
  { c with brown_c0 := c.brown_c0 + k, earth_moon_ratio := c.earth_moon_ratio * 10 ^ k }

/-- Another overall hop efficiency. -/
def withHop (h : ℝ) (c : RunCfg) : RunCfg := { c with ballistic_hop_effcy := h }

/-- Efficiencies `k` times as large, for ice `k` times as dense. -/
noncomputable def tradeEffcy (k : ℝ) (c : RunCfg) : RunCfg :=
  { c with ballistic_hop_effcy := k * c.ballistic_hop_effcy, volc_dep_effcy := k * c.volc_dep_effcy,
           ice_density := k * c.ice_density }

/-- A table of efficiencies `k` times as large. -/
noncomputable def scaleHop (k : ℝ) (table : PyDict ℝ) : PyDict ℝ := table.map (fun p => (p.1, k * p.2))

end MoonPIES.Spec
