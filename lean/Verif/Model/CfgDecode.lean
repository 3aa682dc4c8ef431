import Verif.Model.Config
import Verif.Model.RunCfg

/-!
# Reading a configuration object as the numbers of a run

`Model/Config` has `Cfg` objects as maps from names to Python values; `Model/RunCfg` has the
numbers the functions of a run compute with.  Attribute access `cfg.x` ties the two together.
`none` stands for a value the run model has no number for: `None`, an infinity, NaN, or a tuple of
the wrong shape.
-/

namespace MoonPIES

/-- A number in arithmetic; `True` and `False` count as 1 and 0. -/
noncomputable def asNum : PyVal → Option ℝ
  | .float q => some (q : ℝ)
  | .int n => some (n : ℝ)
  | .bool b => some (if b then 1 else 0)
  | _ => none

/-- A switch. -/
def asBool : PyVal → Option Bool
  | .bool b => some b
  | _ => none

/-- A string. -/
def asStr : PyVal → Option String
  | .str s => some (String.ofList s)
  | _ => none

/-- The seed. -/
def asInt : PyVal → Option Int
  | .int n => some n
  | _ => none

/-- A number inside a container. -/
noncomputable def Atom.num : Atom → Option ℝ
  | .float q => some (q : ℝ)
  | .int n => some (n : ℝ)
  | .bool b => some (if b then 1 else 0)
  | _ => Option.none

/-- A string inside a container. -/
def Atom.text : Atom → Option String
  | .str s => some (String.ofList s)
  | _ => Option.none

/-- A tuple of names. -/
def asNames : PyVal → Option (List String)
  | .tuple l => l.mapM Atom.text
  | _ => none

/-- A tuple of numbers. -/
noncomputable def asNums : PyVal → Option (List ℝ)
  | .tuple l => l.mapM Atom.num
  | _ => none

/-- A tuple unpacked into two numbers. -/
noncomputable def asPair : PyVal → Option (ℝ × ℝ)
  | .tuple [a, b] => do return (← a.num, ← b.num)
  | _ => none

/-- The entry of one regime, `none` if it has a `None` in it or another length. -/
noncomputable def regimeEntry (e : Str × List Atom) : Option (String × ℝ × ℝ × ℝ × ℝ) :=
  match e.2 with
  | [a, b, c, d] => do return (String.ofList e.1, ← a.num, ← b.num, ← c.num, ← d.num)
  | _ => none

/-- The dictionary of regimes.  An entry that holds `None` (regime `a`) cannot be used for
arithmetic and is left out. -/
noncomputable def asRegimes : PyVal → Option (PyDict (ℝ × ℝ × ℝ × ℝ))
  | .dict l => some (l.filterMap regimeEntry)
  | _ => none

/-- The fields of a configuration object (config.py:63-271) as read by a run.  `ice_species`
(config.py:163) has no annotation: it is a class attribute, the same for every object. -/
noncomputable def RunCfg.ofVals (c : CfgVals) : Option RunCfg := do
  let seed ← asInt (c "seed")
  let mode ← asStr (c "mode")
  let strat_after_age ← asBool (c "strat_after_age")
  let solar_wind_ice ← asBool (c "solar_wind_ice")
  let ballistic_hop_moores ← asBool (c "ballistic_hop_moores")
  let ejecta_basins ← asBool (c "ejecta_basins")
  let impact_ice_basins ← asBool (c "impact_ice_basins")
  let impact_ice_comets ← asBool (c "impact_ice_comets")
  let use_volc_dep_effcy ← asBool (c "use_volc_dep_effcy")
  let ballistic_sed ← asBool (c "ballistic_sed")
  let impact_gardening_costello ← asBool (c "impact_gardening_costello")
  let is_comet ← asBool (c "is_comet")
  let solar_wind_mode ← asStr (c "solar_wind_mode")
  let volc_mode ← asStr (c "volc_mode")
  let faint_young_sun ← asBool (c "faint_young_sun")
  let neukum_pf_new ← asBool (c "neukum_pf_new")
  let mixing_ratio_petro ← asBool (c "mixing_ratio_petro")
  let basin_ejecta_temp_warm ← asBool (c "basin_ejecta_temp_warm")
  let coldtrap_names ← asNames (c "coldtrap_names")
  let timestart ← asNum (c "timestart")
  let timeend ← asNum (c "timeend")
  let timestep ← asNum (c "timestep")
  let ballistic_hop_effcy ← asNum (c "ballistic_hop_effcy")
  let volc_dep_effcy ← asNum (c "volc_dep_effcy")
  let coldtrap_area_H2O ← asNum (c "coldtrap_area_H2O")
  let coldtrap_area_CO2 ← asNum (c "coldtrap_area_CO2")
  let ice_density ← asNum (c "ice_density")
  let simple2complex ← asNum (c "simple2complex")
  let complex2peakring ← asNum (c "complex2peakring")
  let rad_moon ← asNum (c "rad_moon")
  let grav_moon ← asNum (c "grav_moon")
  let sa_moon ← asNum (c "sa_moon")
  let impact_angle ← asNum (c "impact_angle")
  let target_density ← asNum (c "target_density")
  let impactor_density ← asNum (c "impactor_density")
  let ej_thickness_exp ← asNum (c "ej_thickness_exp")
  let ej_threshold ← asNum (c "ej_threshold")
  let basin_ej_threshold ← asNum (c "basin_ej_threshold")
  let thickness_min ← asNum (c "thickness_min")
  let ice_erosion_rate ← asNum (c "ice_erosion_rate")
  let neukum_pf_a_2001 ← asNums (c "neukum_pf_a_2001")
  let neukum_pf_a_1983 ← asNums (c "neukum_pf_a_1983")
  let impact_regimes ← asRegimes (c "impact_regimes")
  let mm_mass_rate ← asNum (c "mm_mass_rate")
  let ctype_frac ← asNum (c "ctype_frac")
  let ctype_hydrated ← asNum (c "ctype_hydrated")
  let hydrated_wt_pct ← asNum (c "hydrated_wt_pct")
  let impact_mass_retained ← asNum (c "impact_mass_retained")
  let brown_c0 ← asNum (c "brown_c0")
  let brown_d0 ← asNum (c "brown_d0")
  let earth_moon_ratio ← asNum (c "earth_moon_ratio")
  let impact_speed_mean ← asNum (c "impact_speed_mean")
  let impact_speed_sd ← asNum (c "impact_speed_sd")
  let escape_vel ← asNum (c "escape_vel")
  let comet_ast_frac ← asNum (c "comet_ast_frac")
  let comet_density ← asNum (c "comet_density")
  let comet_hydrated_wt_pct ← asNum (c "comet_hydrated_wt_pct")
  let comet_mass_retained ← asNum (c "comet_mass_retained")
  let comet_speed_min ← asNum (c "comet_speed_min")
  let comet_speed_max ← asNum (c "comet_speed_max")
  let jfc_speed_mean ← asNum (c "jfc_speed_mean")
  let jfc_speed_sd ← asNum (c "jfc_speed_sd")
  let jfc_frac ← asNum (c "jfc_frac")
  let lpc_speed_mean ← asNum (c "lpc_speed_mean")
  let lpc_speed_sd ← asNum (c "lpc_speed_sd")
  let lpc_frac ← asNum (c "lpc_frac")
  let volc_early ← asPair (c "volc_early")
  let volc_late ← asPair (c "volc_late")
  let volc_early_pct ← asNum (c "volc_early_pct")
  let volc_late_pct ← asNum (c "volc_late_pct")
  let volc_total_vol ← asNum (c "volc_total_vol")
  let volc_ice_ppm ← asNum (c "volc_ice_ppm")
  let volc_magma_density ← asNum (c "volc_magma_density")
  let ballistic_sed_frac_lost ← asNum (c "ballistic_sed_frac_lost")
  let mixing_ratio_a ← asNum (c "mixing_ratio_a")
  let mixing_ratio_b ← asNum (c "mixing_ratio_b")
  let polar_ejecta_temp_init ← asNum (c "polar_ejecta_temp_init")
  let basin_ejecta_temp_init_warm ← asNum (c "basin_ejecta_temp_init_warm")
  let basin_ejecta_temp_init_cold ← asNum (c "basin_ejecta_temp_init_cold")
  let overturn_depth_present ← asNum (c "overturn_depth_present")
  let overturn_ancient_slope ← asNum (c "overturn_ancient_slope")
  let overturn_ancient_t0 ← asNum (c "overturn_ancient_t0")
  return {
    seed, mode, strat_after_age, solar_wind_ice, ballistic_hop_moores, ejecta_basins,
    impact_ice_basins, impact_ice_comets, use_volc_dep_effcy, ballistic_sed,
    impact_gardening_costello, is_comet, ice_species := "H2O", solar_wind_mode, volc_mode,
    faint_young_sun, neukum_pf_new, mixing_ratio_petro, basin_ejecta_temp_warm, coldtrap_names,
    timestart, timeend, timestep, ballistic_hop_effcy, volc_dep_effcy, coldtrap_area_H2O,
    coldtrap_area_CO2, ice_density, simple2complex, complex2peakring, rad_moon, grav_moon,
    sa_moon, impact_angle, target_density, impactor_density, ej_thickness_exp, ej_threshold,
    basin_ej_threshold, thickness_min, ice_erosion_rate, neukum_pf_a_2001, neukum_pf_a_1983,
    impact_regimes, mm_mass_rate, ctype_frac, ctype_hydrated, hydrated_wt_pct,
    impact_mass_retained, brown_c0, brown_d0, earth_moon_ratio, impact_speed_mean,
    impact_speed_sd, escape_vel, comet_ast_frac, comet_density, comet_hydrated_wt_pct,
    comet_mass_retained, comet_speed_min, comet_speed_max, jfc_speed_mean, jfc_speed_sd,
    jfc_frac, lpc_speed_mean, lpc_speed_sd, lpc_frac, volc_early, volc_late, volc_early_pct,
    volc_late_pct, volc_total_vol, volc_ice_ppm, volc_magma_density, ballistic_sed_frac_lost,
    mixing_ratio_a, mixing_ratio_b, polar_ejecta_temp_init, basin_ejecta_temp_init_warm,
    basin_ejecta_temp_init_cold, overturn_depth_present, overturn_ancient_slope,
    overturn_ancient_t0 }

end MoonPIES
