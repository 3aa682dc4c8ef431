import Verif.Model.Main

/-!
# Configurations that supply more ice and lose less

For comparing two runs with the same seed (C115).
-/

namespace MoonPIES

/-- The configuration `c` with the options compared here taken from `o`: the strength of ballistic
sedimentation, of gardening and of erosion, solar wind and volcanic ice, the hydration and retained
mass of asteroids and comets, the mass of micrometeorites, and the two options that only matter for
the tables. -/
def RunCfg.withOptions (c o : RunCfg) : RunCfg :=
  { c with
    ballistic_sed := o.ballistic_sed
    ballistic_sed_frac_lost := o.ballistic_sed_frac_lost
    overturn_depth_present := o.overturn_depth_present
    overturn_ancient_slope := o.overturn_ancient_slope
    ice_erosion_rate := o.ice_erosion_rate
    solar_wind_ice := o.solar_wind_ice
    volc_total_vol := o.volc_total_vol
    volc_ice_ppm := o.volc_ice_ppm
    volc_dep_effcy := o.volc_dep_effcy
    mm_mass_rate := o.mm_mass_rate
    comet_hydrated_wt_pct := o.comet_hydrated_wt_pct
    comet_mass_retained := o.comet_mass_retained
    hydrated_wt_pct := o.hydrated_wt_pct
    impact_mass_retained := o.impact_mass_retained
    thickness_min := o.thickness_min
    strat_after_age := o.strat_after_age }

/-- `c'` supplies at least as much ice as `c` and loses it no faster; all other options but those
of the tables agree, the seed among them. -/
structure Gentler (c c' : RunCfg) : Prop where
  same : c' = c.withOptions c'
  sed : c'.ballistic_sed = true → c.ballistic_sed = true
  lost : c'.ballistic_sed_frac_lost ≤ c.ballistic_sed_frac_lost
  gardening : (c'.overturn_depth_present = c.overturn_depth_present ∧
      c'.overturn_ancient_slope = c.overturn_ancient_slope) ∨
    (c'.overturn_depth_present ≤ c.overturn_depth_present ∧ 0 ≤ c.overturn_depth_present ∧
      c'.overturn_ancient_slope ≤ c.overturn_ancient_slope ∧ 0 ≤ c'.overturn_ancient_slope)
  erosion : c'.ice_erosion_rate ≤ c.ice_erosion_rate
  solar : c.solar_wind_ice = true → c'.solar_wind_ice = true
  vol : c.volc_total_vol ≤ c'.volc_total_vol
  ppm : c.volc_ice_ppm ≤ c'.volc_ice_ppm
  dep : c.volc_dep_effcy ≤ c'.volc_dep_effcy
  mm : c.mm_mass_rate ≤ c'.mm_mass_rate
  cometWater : c.comet_hydrated_wt_pct ≤ c'.comet_hydrated_wt_pct
  cometRetained : c.comet_mass_retained ≤ c'.comet_mass_retained
  water : c.hydrated_wt_pct ≤ c'.hydrated_wt_pct
  retained : c.impact_mass_retained ≤ c'.impact_mass_retained

end MoonPIES
