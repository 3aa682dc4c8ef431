import Verif.Model.Random
import Verif.Model.Flux
import Verif.Model.Bsed

/-!
# The configuration of a run

The fields of `Cfg` (`/repo/moonpies/config.py` 63-271) read by `main` and the functions it
calls, as numbers.  Each module of the model has its own small configuration structure; the
projections below are the views of one configuration.
-/

namespace MoonPIES

/-- The fields read during a run. -/
structure RunCfg where
  seed : Int
  mode : String
  strat_after_age : Bool
  solar_wind_ice : Bool
  ballistic_hop_moores : Bool
  ejecta_basins : Bool
  impact_ice_basins : Bool
  impact_ice_comets : Bool
  use_volc_dep_effcy : Bool
  ballistic_sed : Bool
  impact_gardening_costello : Bool
  is_comet : Bool
  ice_species : String
  solar_wind_mode : String
  volc_mode : String
  faint_young_sun : Bool
  neukum_pf_new : Bool
  mixing_ratio_petro : Bool
  basin_ejecta_temp_warm : Bool
  coldtrap_names : List String
  timestart : ℝ
  timeend : ℝ
  timestep : ℝ
  ballistic_hop_effcy : ℝ
  volc_dep_effcy : ℝ
  coldtrap_area_H2O : ℝ
  coldtrap_area_CO2 : ℝ
  ice_density : ℝ
  simple2complex : ℝ
  complex2peakring : ℝ
  rad_moon : ℝ
  grav_moon : ℝ
  sa_moon : ℝ
  impact_angle : ℝ
  target_density : ℝ
  impactor_density : ℝ
  ej_thickness_exp : ℝ
  ej_threshold : ℝ
  basin_ej_threshold : ℝ
  thickness_min : ℝ
  ice_erosion_rate : ℝ
  neukum_pf_a_2001 : List ℝ
  neukum_pf_a_1983 : List ℝ
  impact_regimes : PyDict (ℝ × ℝ × ℝ × ℝ)
  mm_mass_rate : ℝ
  ctype_frac : ℝ
  ctype_hydrated : ℝ
  hydrated_wt_pct : ℝ
  impact_mass_retained : ℝ
  brown_c0 : ℝ
  brown_d0 : ℝ
  earth_moon_ratio : ℝ
  impact_speed_mean : ℝ
  impact_speed_sd : ℝ
  escape_vel : ℝ
  comet_ast_frac : ℝ
  comet_density : ℝ
  comet_hydrated_wt_pct : ℝ
  comet_mass_retained : ℝ
  comet_speed_min : ℝ
  comet_speed_max : ℝ
  jfc_speed_mean : ℝ
  jfc_speed_sd : ℝ
  jfc_frac : ℝ
  lpc_speed_mean : ℝ
  lpc_speed_sd : ℝ
  lpc_frac : ℝ
  volc_early : ℝ × ℝ
  volc_late : ℝ × ℝ
  volc_early_pct : ℝ
  volc_late_pct : ℝ
  volc_total_vol : ℝ
  volc_ice_ppm : ℝ
  volc_magma_density : ℝ
  ballistic_sed_frac_lost : ℝ
  mixing_ratio_a : ℝ
  mixing_ratio_b : ℝ
  polar_ejecta_temp_init : ℝ
  basin_ejecta_temp_init_warm : ℝ
  basin_ejecta_temp_init_cold : ℝ
  overturn_depth_present : ℝ
  overturn_ancient_slope : ℝ
  overturn_ancient_t0 : ℝ

namespace RunCfg

/-- Fields deciding impactor types (`Model/Random.lean`). -/
def imp (c : RunCfg) : ImpCfg ℝ :=
  { isComet := c.is_comet, comets := c.impact_ice_comets, basins := c.impact_ice_basins,
    cometFrac := c.comet_ast_frac, ctypeFrac := c.ctype_frac, ctypeHyd := c.ctype_hydrated }

/-- Speed fields (`Model/Random.lean`). -/
def speed (c : RunCfg) : SpeedCfg ℝ :=
  { escapeVel := c.escape_vel, speedMean := c.impact_speed_mean, speedSd := c.impact_speed_sd,
    cometMin := c.comet_speed_min, cometMax := c.comet_speed_max, jfcMean := c.jfc_speed_mean,
    jfcSd := c.jfc_speed_sd, lpcMean := c.lpc_speed_mean, lpcSd := c.lpc_speed_sd }

/-- Scaling fields (`Model/Scaling.lean`). -/
def scale (c : RunCfg) : ScaleCfg :=
  { impactor_density := c.impactor_density, target_density := c.target_density,
    grav_moon := c.grav_moon, impact_angle := c.impact_angle,
    simple2complex := c.simple2complex, complex2peakring := c.complex2peakring }

/-- Delivery fields (`Model/Flux.lean`). -/
def flux (c : RunCfg) : FluxCfg :=
  { c.scale with
    mm_mass_rate := c.mm_mass_rate, is_comet := c.is_comet,
    impact_ice_comets := c.impact_ice_comets, comet_hydrated_wt_pct := c.comet_hydrated_wt_pct,
    comet_mass_retained := c.comet_mass_retained, hydrated_wt_pct := c.hydrated_wt_pct,
    impact_mass_retained := c.impact_mass_retained, ctype_frac := c.ctype_frac,
    ctype_hydrated := c.ctype_hydrated, comet_ast_frac := c.comet_ast_frac,
    timestep := c.timestep, brown_c0 := c.brown_c0, brown_d0 := c.brown_d0,
    earth_moon_ratio := c.earth_moon_ratio, sa_moon := c.sa_moon,
    impact_speed_mean := c.impact_speed_mean, neukum_pf_new := c.neukum_pf_new,
    neukum_pf_a_2001 := c.neukum_pf_a_2001, neukum_pf_a_1983 := c.neukum_pf_a_1983,
    impact_regimes := c.impact_regimes }

/-- Thickness fields (`Model/Ice.lean`). -/
def ice (c : RunCfg) : IceCfg ℝ :=
  { ice_species := c.ice_species, coldtrap_area_H2O := c.coldtrap_area_H2O,
    coldtrap_area_CO2 := c.coldtrap_area_CO2, ballistic_hop_effcy := c.ballistic_hop_effcy,
    ice_density := c.ice_density }

/-- Cold trap switches (`Model/Ice.lean`). -/
def cols (c : RunCfg) : ColsCfg ℝ :=
  { c.ice with
    use_volc_dep_effcy := c.use_volc_dep_effcy, volc_dep_effcy := c.volc_dep_effcy,
    ballistic_hop_moores := c.ballistic_hop_moores, coldtrap_names := c.coldtrap_names }

/-- Solar wind fields (`Model/Ice.lean`). -/
def solar (c : RunCfg) : SolarCfg ℝ :=
  { c.ice with
    solar_wind_ice := c.solar_wind_ice, solar_wind_mode := c.solar_wind_mode,
    faint_young_sun := c.faint_young_sun, timestep := c.timestep }

/-- Volcanism fields (`Model/Ice.lean`). -/
def head (c : RunCfg) : HeadCfg ℝ :=
  { volc_total_vol := c.volc_total_vol, volc_magma_density := c.volc_magma_density,
    volc_ice_ppm := c.volc_ice_ppm, volc_early_pct := c.volc_early_pct,
    volc_late_pct := c.volc_late_pct, volc_early := c.volc_early, volc_late := c.volc_late,
    timestep := c.timestep }

/-- Gardening fields (`Model/Ice.lean`). -/
def overturn (c : RunCfg) : OverturnCfg ℝ :=
  { impact_gardening_costello := c.impact_gardening_costello,
    ice_erosion_rate := c.ice_erosion_rate, timestep := c.timestep,
    overturn_ancient_t0 := c.overturn_ancient_t0,
    overturn_depth_present := c.overturn_depth_present,
    overturn_ancient_slope := c.overturn_ancient_slope }

/-- Ejecta fields (`Model/Ejecta.lean`). -/
def ej (c : RunCfg) : EjCfg :=
  { simple2complex := c.simple2complex, complex2peakring := c.complex2peakring,
    rad_moon := c.rad_moon, grav_moon := c.grav_moon, impact_angle := c.impact_angle,
    ej_thickness_exp := c.ej_thickness_exp, ej_threshold := c.ej_threshold,
    basin_ej_threshold := c.basin_ej_threshold }

/-- `cfg.rtol` (config.py:126), an unannotated class attribute that no configuration changes. -/
noncomputable def rtol : ℝ := 1e-6

/-- Sedimentation fields (`Model/Bsed.lean`). -/
noncomputable def bsed (c : RunCfg) : BsedCfg ℝ :=
  { ballistic_sed := c.ballistic_sed, ballistic_sed_frac_lost := c.ballistic_sed_frac_lost,
    polar_ejecta_temp_init := c.polar_ejecta_temp_init,
    basin_ejecta_temp_warm := c.basin_ejecta_temp_warm,
    basin_ejecta_temp_init_warm := c.basin_ejecta_temp_init_warm,
    basin_ejecta_temp_init_cold := c.basin_ejecta_temp_init_cold, rtol := rtol }

/-- `get_comet_cfg` (moonpies.py:1591-1614): the four fields it replaces.  That rebuilding the
configuration leaves the other fields alone is C58. -/
def comet (c : RunCfg) : RunCfg :=
  { c with
    is_comet := true, hydrated_wt_pct := c.comet_hydrated_wt_pct,
    impactor_density := c.comet_density, impact_mass_retained := c.comet_mass_retained }

/-- The configuration `Cfg(seed=seed)` (config.py:17-61, 63-271): mode `moonpies`, south pole.
Regime `a`, which holds `None` and is never read, is left out. -/
noncomputable def default (seed : Int) : RunCfg where
  seed := seed
  mode := "moonpies"
  strat_after_age := true
  solar_wind_ice := true
  ballistic_hop_moores := true
  ejecta_basins := true
  impact_ice_basins := true
  impact_ice_comets := true
  use_volc_dep_effcy := true
  ballistic_sed := true
  impact_gardening_costello := true
  is_comet := false
  ice_species := "H2O"
  solar_wind_mode := "Benna"
  volc_mode := "Head"
  faint_young_sun := true
  neukum_pf_new := true
  mixing_ratio_petro := true
  basin_ejecta_temp_warm := false
  coldtrap_names := ["Haworth", "Shoemaker", "Faustini", "Shackleton", "Slater", "Amundsen",
    "Cabeus", "Sverdrup", "de Gerlache", "Idel'son L", "Wiechert J", "Cabeus B"]
  timestart := 4.25e9
  timeend := 0
  timestep := 10e6
  ballistic_hop_effcy := 0.054
  volc_dep_effcy := 0.26
  coldtrap_area_H2O := 1.3e4 * 1e6
  coldtrap_area_CO2 := 104 * 1e6
  ice_density := 934
  simple2complex := 18e3
  complex2peakring := 1.4e5
  rad_moon := 1737.4e3
  grav_moon := 1.62
  sa_moon := 4855337996720699 / 128
  impact_angle := 45
  target_density := 1500
  impactor_density := 1300
  ej_thickness_exp := -3
  ej_threshold := 4
  basin_ej_threshold := 5
  thickness_min := 1e-3
  ice_erosion_rate := 0.1
  neukum_pf_a_2001 := [-3.0876, -3.557528, 0.781027, 1.021521, -0.156012, -0.444058, 0.019977,
    0.086850, -0.005874, -0.006809, 8.25e-4, 5.54e-5]
  neukum_pf_a_1983 := [-3.0768, -3.6269, 0.4366, 0.7935, 0.0865, -0.2649, -0.0664, 0.0379, 0.0106,
    -0.0022, -5.18e-4, 3.97e-5]
  impact_regimes := [("b", 0.01, 3, 1e-4, -3.7), ("c", 100, 1.5e3, 1, -3.82),
    ("d", 1.5e3, 15e3, 1e2, -1.8), ("e", 15e3, 300e3, 1e3, -1.8)]
  mm_mass_rate := 1e6
  ctype_frac := 0.36
  ctype_hydrated := 2 / 3
  hydrated_wt_pct := 0.1
  impact_mass_retained := 0.165
  brown_c0 := 1.568
  brown_d0 := 2.7
  earth_moon_ratio := 22.5
  impact_speed_mean := 20e3
  impact_speed_sd := 6e3
  escape_vel := 2.38e3
  comet_ast_frac := 0.05
  comet_density := 600
  comet_hydrated_wt_pct := 0.2
  comet_mass_retained := 0.065
  comet_speed_min := 10.2e3
  comet_speed_max := 72e3
  jfc_speed_mean := 20e3
  jfc_speed_sd := 5e3
  jfc_frac := 0.875
  lpc_speed_mean := 54e3
  lpc_speed_sd := 5e3
  lpc_frac := 0.125
  volc_early := (4e9, 3e9)
  volc_late := (3e9, 2e9)
  volc_early_pct := 0.75
  volc_late_pct := 0.25
  volc_total_vol := 1e7 * 1e9 * 1e-9
  volc_ice_ppm := 10
  volc_magma_density := 3000
  ballistic_sed_frac_lost := 1
  mixing_ratio_a := 0.0183
  mixing_ratio_b := 0.87
  polar_ejecta_temp_init := 140
  basin_ejecta_temp_init_warm := 420
  basin_ejecta_temp_init_cold := 260
  overturn_depth_present := 0.09
  overturn_ancient_slope := 1e-9
  overturn_ancient_t0 := 3e9

/-- The configuration `Cfg(seed=seed, mode='cannon')` (config.py:17-27); both modes have the same
impact speed because the mode default is never applied (C53). -/
noncomputable def cannon (seed : Int) : RunCfg :=
  { default seed with
    mode := "cannon", solar_wind_ice := false, ballistic_hop_moores := false,
    ejecta_basins := false, impact_ice_basins := false, impact_ice_comets := false,
    use_volc_dep_effcy := false, ballistic_sed := false, impact_gardening_costello := false }

/-- The settings of the north pole (config.py:52-60). -/
noncomputable def north (c : RunCfg) : RunCfg :=
  { c with
    ballistic_hop_effcy := 0.027, volc_dep_effcy := 0.15, coldtrap_area_H2O := 5.3e3 * 1e6,
    coldtrap_area_CO2 := 0,
    coldtrap_names := ["Fibiger", "Hermite", "Hermite A", "Hevesy", "Lovelace", "Nansen A",
      "Nansen F", "Rozhdestvenskiy U", "Rozhdestvenskiy W", "Sylvester"] }

end RunCfg

end MoonPIES
