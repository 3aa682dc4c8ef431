import Verif.Model.Main

/-!
# Settings in use

Which settings and files a run can be affected by, given its switches: the reading of the
comments in `/repo/moonpies/config.py` 63-271, where each group of settings belongs to a module
that can be switched off or to one of two alternatives.
-/

namespace MoonPIES.Spec

/-- The settings of `c'` and the files `d'` agree with `c` and `d` wherever the switches of `c`
say they are used.  `ejecta_basins` is not listed: it is never used (C62).  Comets are separate,
in `SameComets`. -/
structure SameInUse (c c' : RunCfg) (d d' : RunData) : Prop where
  seed : c'.seed = c.seed
  mode : c'.mode = c.mode
  strat_after_age : c'.strat_after_age = c.strat_after_age
  solar_wind_ice : c'.solar_wind_ice = c.solar_wind_ice
  ballistic_hop_moores : c'.ballistic_hop_moores = c.ballistic_hop_moores
  impact_ice_basins : c'.impact_ice_basins = c.impact_ice_basins
  impact_ice_comets : c'.impact_ice_comets = c.impact_ice_comets
  use_volc_dep_effcy : c'.use_volc_dep_effcy = c.use_volc_dep_effcy
  ballistic_sed : c'.ballistic_sed = c.ballistic_sed
  impact_gardening_costello : c'.impact_gardening_costello = c.impact_gardening_costello
  is_comet : c'.is_comet = c.is_comet
  ice_species : c'.ice_species = c.ice_species
  volc_mode : c'.volc_mode = c.volc_mode
  neukum_pf_new : c'.neukum_pf_new = c.neukum_pf_new
  coldtrap_names : c'.coldtrap_names = c.coldtrap_names
  timestart : c'.timestart = c.timestart
  timeend : c'.timeend = c.timeend
  timestep : c'.timestep = c.timestep
  ballistic_hop_effcy : c'.ballistic_hop_effcy = c.ballistic_hop_effcy
  ice_density : c'.ice_density = c.ice_density
  simple2complex : c'.simple2complex = c.simple2complex
  complex2peakring : c'.complex2peakring = c.complex2peakring
  rad_moon : c'.rad_moon = c.rad_moon
  grav_moon : c'.grav_moon = c.grav_moon
  sa_moon : c'.sa_moon = c.sa_moon
  impact_angle : c'.impact_angle = c.impact_angle
  target_density : c'.target_density = c.target_density
  impactor_density : c'.impactor_density = c.impactor_density
  ej_thickness_exp : c'.ej_thickness_exp = c.ej_thickness_exp
  ej_threshold : c'.ej_threshold = c.ej_threshold
  basin_ej_threshold : c'.basin_ej_threshold = c.basin_ej_threshold
  thickness_min : c'.thickness_min = c.thickness_min
  impact_regimes : c'.impact_regimes = c.impact_regimes
  mm_mass_rate : c'.mm_mass_rate = c.mm_mass_rate
  ctype_frac : c'.ctype_frac = c.ctype_frac
  ctype_hydrated : c'.ctype_hydrated = c.ctype_hydrated
  hydrated_wt_pct : c'.hydrated_wt_pct = c.hydrated_wt_pct
  impact_mass_retained : c'.impact_mass_retained = c.impact_mass_retained
  brown_c0 : c'.brown_c0 = c.brown_c0
  brown_d0 : c'.brown_d0 = c.brown_d0
  earth_moon_ratio : c'.earth_moon_ratio = c.earth_moon_ratio
  impact_speed_mean : c'.impact_speed_mean = c.impact_speed_mean
  impact_speed_sd : c'.impact_speed_sd = c.impact_speed_sd
  escape_vel : c'.escape_vel = c.escape_vel
  coldtrap_area_H2O : c.ice_species = "H2O" → c'.coldtrap_area_H2O = c.coldtrap_area_H2O
  coldtrap_area_CO2 : c.ice_species = "CO2" → c'.coldtrap_area_CO2 = c.coldtrap_area_CO2
  solar_wind_mode : c.solar_wind_ice = true → c'.solar_wind_mode = c.solar_wind_mode
  faint_young_sun : c.solar_wind_ice = true → c'.faint_young_sun = c.faint_young_sun
  volc_dep_effcy : c.use_volc_dep_effcy = true → c'.volc_dep_effcy = c.volc_dep_effcy
  ice_erosion_rate : c.impact_gardening_costello = false → c'.ice_erosion_rate = c.ice_erosion_rate
  overturn_depth_present : c.impact_gardening_costello = true → c'.overturn_depth_present = c.overturn_depth_present
  overturn_ancient_slope : c.impact_gardening_costello = true → c'.overturn_ancient_slope = c.overturn_ancient_slope
  overturn_ancient_t0 : c.impact_gardening_costello = true → c'.overturn_ancient_t0 = c.overturn_ancient_t0
  neukum_pf_a_2001 : c.neukum_pf_new = true → c'.neukum_pf_a_2001 = c.neukum_pf_a_2001
  neukum_pf_a_1983 : c.neukum_pf_new = false → c'.neukum_pf_a_1983 = c.neukum_pf_a_1983
  volc_early : c.volc_mode = "Head" → c'.volc_early = c.volc_early
  volc_late : c.volc_mode = "Head" → c'.volc_late = c.volc_late
  volc_early_pct : c.volc_mode = "Head" → c'.volc_early_pct = c.volc_early_pct
  volc_late_pct : c.volc_mode = "Head" → c'.volc_late_pct = c.volc_late_pct
  volc_total_vol : c.volc_mode = "Head" → c'.volc_total_vol = c.volc_total_vol
  volc_ice_ppm : c.volc_mode = "Head" → c'.volc_ice_ppm = c.volc_ice_ppm
  volc_magma_density : c.volc_mode = "Head" → c'.volc_magma_density = c.volc_magma_density
  ballistic_sed_frac_lost : c.ballistic_sed = true → c'.ballistic_sed_frac_lost = c.ballistic_sed_frac_lost
  mixing_ratio_petro : c.ballistic_sed = true → c'.mixing_ratio_petro = c.mixing_ratio_petro
  mixing_ratio_a : c.ballistic_sed = true → c'.mixing_ratio_a = c.mixing_ratio_a
  mixing_ratio_b : c.ballistic_sed = true → c'.mixing_ratio_b = c.mixing_ratio_b
  polar_ejecta_temp_init : c.ballistic_sed = true → c'.polar_ejecta_temp_init = c.polar_ejecta_temp_init
  basin_ejecta_temp_warm : c.ballistic_sed = true → c'.basin_ejecta_temp_warm = c.basin_ejecta_temp_warm
  basin_ejecta_temp_init_warm : c.ballistic_sed = true → c.basin_ejecta_temp_warm = true →
      c'.basin_ejecta_temp_init_warm = c.basin_ejecta_temp_init_warm
  basin_ejecta_temp_init_cold : c.ballistic_sed = true → c.basin_ejecta_temp_warm = false →
      c'.basin_ejecta_temp_init_cold = c.basin_ejecta_temp_init_cold
  craters : d'.craters = d.craters
  basins : d'.basins = d.basins
  sortAges : d'.sortAges = d.sortAges
  setOrder : d'.setOrder = d.setOrder
  hop : c.ballistic_hop_moores = true → d'.hop = d.hop
  lum : c.solar_wind_ice = true → c.faint_young_sun = true → d'.lum = d.lum
  nk : c.volc_mode = "NK" → d'.nk = d.nk
  sortNk : c.volc_mode = "NK" → d'.sortNk = d.sortNk
  melt : c.ballistic_sed = true → d'.melt = d.melt

/-- The two configurations agree on the settings of comets. -/
structure SameComets (c c' : RunCfg) : Prop where
  comet_ast_frac : c'.comet_ast_frac = c.comet_ast_frac
  comet_density : c'.comet_density = c.comet_density
  comet_hydrated_wt_pct : c'.comet_hydrated_wt_pct = c.comet_hydrated_wt_pct
  comet_mass_retained : c'.comet_mass_retained = c.comet_mass_retained
  comet_speed_min : c'.comet_speed_min = c.comet_speed_min
  comet_speed_max : c'.comet_speed_max = c.comet_speed_max
  jfc_speed_mean : c'.jfc_speed_mean = c.jfc_speed_mean
  jfc_speed_sd : c'.jfc_speed_sd = c.jfc_speed_sd
  jfc_frac : c'.jfc_frac = c.jfc_frac
  lpc_speed_mean : c'.lpc_speed_mean = c.lpc_speed_mean
  lpc_speed_sd : c'.lpc_speed_sd = c.lpc_speed_sd
  lpc_frac : c'.lpc_frac = c.lpc_frac

end MoonPIES.Spec
