import Verif.Model.Basic
import Verif.Model.Interp
import Verif.Model.Rounding
import Verif.Model.AgesToTime
import Mathlib.Algebra.Order.Field.Basic

/-!
# Ice thickness, solar wind, volcanism, gardening depth

`/repo/moonpies/moonpies.py` 812-957, 960-1133, 1310-1347, 1488-1554, 1760-1781.
-/

namespace MoonPIES

variable {K : Type} [Field K] [LinearOrder K]

/-- Fields read by `get_ice_thickness` (config.py). -/
structure IceCfg (K : Type) where
  ice_species : String
  coldtrap_area_H2O : K
  coldtrap_area_CO2 : K
  ballistic_hop_effcy : K
  ice_density : K

/-- `get_ice_thickness` (moonpies.py:898-930) for one mass; `coldtrap_area` is unbound for
another species. -/
def iceThickness (cfg : IceCfg K) (mass : K) : Except PyErr K := do
  let area ← if cfg.ice_species = "H2O" then .ok cfg.coldtrap_area_H2O
    else if cfg.ice_species = "CO2" then .ok cfg.coldtrap_area_CO2
    else .error .unboundLocalError
  let polar := mass * cfg.ballistic_hop_effcy
  let volume := polar / cfg.ice_density
  .ok (volume / area)

/-- The switches and fields read by `get_ice_cols_time`. -/
structure ColsCfg (K : Type) extends IceCfg K where
  use_volc_dep_effcy : Bool
  volc_dep_effcy : K
  ballistic_hop_moores : Bool
  coldtrap_names : List String

/-- `get_ballistic_hop_coldtraps` (moonpies.py:1766-1781): one efficiency per trap from
the table, `KeyError` when a name is missing. -/
def hopColdtraps (table : PyDict K) (names : List String) : Except PyErr (List K) :=
  names.mapM (fun n => PyDict.get table n)

/-- First switch of `get_ice_cols_time` (moonpies.py:842-850): rescale the volcanic ice
or move it into the polar ice.  Dividing two Python floats by zero raises. -/
def volcShare (cfg : ColsCfg K) (polar volc : List K) : Except PyErr (List K × List K) :=
  if cfg.use_volc_dep_effcy then
    if cfg.ballistic_hop_effcy = 0 then .error .zeroDivisionError
    else .ok (polar, volc.map (fun v => v * (cfg.volc_dep_effcy / cfg.ballistic_hop_effcy)))
  else .ok (List.zipWith (· + ·) polar volc, volc.map (fun v => v * 0))

/-- Second switch of `get_ice_cols_time` (moonpies.py:852-860): one value per trap. -/
def trapRows (cfg : ColsCfg K) (table : PyDict K) (polar : List K) :
    Except PyErr (List (List K)) :=
  if cfg.ballistic_hop_moores then do
    let bhops ← hopColdtraps table cfg.coldtrap_names
    .ok (polar.map (fun p => bhops.map (fun b => b / cfg.ballistic_hop_effcy * p)))
  else .ok (polar.map (fun p => List.replicate cfg.coldtrap_names.length p))

/-- `get_ice_cols_time` (moonpies.py:812-863) given the polar and volcanic thickness
columns and the hop table: one row of trap values per time.  In-place updates become new
lists, in the order of the code. -/
def iceColsTime (cfg : ColsCfg K) (table : PyDict K) (polar volc : List K) :
    Except PyErr (List (List K)) := do
  let pv ← volcShare cfg polar volc
  let rows ← trapRows cfg table pv.1
  .ok (List.zipWith (fun row v => row.map (fun p => p + v)) rows pv.2)

/-! ## Solar wind -/

/-- Fields read by the solar wind module. -/
structure SolarCfg (K : Type) extends IceCfg K where
  solar_wind_ice : Bool
  solar_wind_mode : String
  faint_young_sun : Bool
  timestep : K

/-- Supply rate [kg/s] of a mode (moonpies.py:999-1008). -/
def solarRate (mode : String) : Except PyErr K :=
  if mode.toLower = "benna" then .ok (2 * (1 / 1000))
  else if mode.toLower = "lucey-hurley" then .ok (30 * (1 / 1000) * (1 / 1000))
  else .error .valueError

/-- `solar_wind_ice_mass` (moonpies.py:960-1020); `lum` is the luminosity table as
`(time, luminosity)` rows in file order.  `np.interp` of an empty table raises. -/
def solarWindMass (cfg : SolarCfg K) (lum : List (K × K)) (time : List K) :
    Except PyErr (List K) := do
  let rate ← solarRate cfg.solar_wind_mode
  let supply := rate * 60 * 60 * 24 * 365 * cfg.timestep
  if cfg.faint_young_sun then
    time.mapM (fun t => match npInterp (-t) (lum.map (fun r => (-r.1, r.2))) with
      | some l => .ok (1 * supply * l)
      | none => .error .valueError)
  else .ok (time.map (fun _ => 1 * supply))

/-- `read_solar_luminosity` (moonpies.py:413-437): ages since formation in Gyr to years
before present. -/
def readLuminosity (rows : List (K × K)) : List (K × K) :=
  rows.map (fun r => ((457 / 100 - r.1) * 1000000000, r.2))

/-- `get_solar_wind_ice` (moonpies.py:934-957). -/
def solarWindIce (cfg : SolarCfg K) (lum : List (K × K)) (time : List K) :
    Except PyErr (List K) :=
  if cfg.solar_wind_ice then do
    let mass ← solarWindMass cfg lum time
    mass.mapM (fun m => iceThickness cfg.toIceCfg m)
  else .ok (time.map (fun _ => 0))

/-! ## Volcanism -/

/-- Fields read by the Head et al. mode. -/
structure HeadCfg (K : Type) where
  volc_total_vol : K
  volc_magma_density : K
  volc_ice_ppm : K
  volc_early_pct : K
  volc_late_pct : K
  volc_early : K × K
  volc_late : K × K
  timestep : K

/-- `volcanic_ice_head` (moonpies.py:1091-1133): two masked assignments into zeros, the
late epoch last. -/
def volcanicHead (cfg : HeadCfg K) (time : List K) : List K :=
  let volcMass := cfg.volc_total_vol * cfg.volc_magma_density
  let iceTotal := volcMass * cfg.volc_ice_ppm * (1 / 1000000)
  let iceEarly := iceTotal * cfg.volc_early_pct * cfg.timestep
  let iceLate := iceTotal * cfg.volc_late_pct * cfg.timestep
  let (emax, emin) := cfg.volc_early
  let (lmax, lmin) := cfg.volc_late
  time.map (fun t =>
    let x : K := 0
    let x := if t ≤ emax ∧ t > emin then iceEarly else x
    if t ≤ lmax ∧ t > lmin then iceLate else x)

/-- The attributes of a `Cfg` object (config.py:63-271): the dataclass fields and the
unannotated class attributes, and its public methods. -/
def cfgAttrs : List String :=
  ["seed", "run_name", "run_date", "run_time", "version", "mode", "pole", "verbose",
   "strat_after_age", "write", "write_npy", "plot", "to_dict", "to_string", "to_py",
   "solar_wind_ice", "ballistic_hop_moores", "ejecta_basins", "impact_ice_basins",
   "impact_ice_comets", "use_volc_dep_effcy", "ballistic_sed", "impact_gardening_costello",
   "ballistic_hop_effcy", "volc_dep_effcy", "coldtrap_area_H2O", "coldtrap_area_CO2",
   "coldtrap_names", "data_path", "out_path", "figs_path", "crater_csv_in", "basin_csv_in",
   "nk_csv_in", "bahcall_csv_in", "bhop_csv_in", "bsed_frac_mean_in", "bsed_frac_std_in",
   "mplstyle_in", "ej_t_csv_out", "ice_t_csv_out", "config_py_out", "agegrd_npy_out",
   "ejmatrix_npy_out", "dtype", "rtol", "grdxsize", "grdysize", "grdstep", "timestart",
   "timeend", "timestep", "rad_moon", "grav_moon", "sa_moon", "simple2complex",
   "complex2peakring", "impactor_density", "impact_speed_mean", "impact_speed_sd",
   "escape_vel", "impact_angle", "target_density", "bulk_density", "ice_erosion_rate",
   "ej_threshold", "basin_ej_threshold", "ej_thickness_exp", "thickness_min",
   "neukum_pf_new", "neukum_pf_a_2001", "neukum_pf_a_1983", "ice_species", "ice_density",
   "ice_melt_temp", "ice_latent_heat", "crater_cols", "basin_cols", "basin_impact_speed",
   "ballistic_teq", "ballistic_sed_frac_lost", "mixing_ratio_petro", "mixing_ratio_a",
   "mixing_ratio_b", "ice_frac", "ke_heat_frac", "ke_heat_frac_speed",
   "polar_ejecta_temp_init", "basin_ejecta_temp_warm", "basin_ejecta_temp_init_cold",
   "basin_ejecta_temp_init_warm", "ejecta_temp_dist_params_cold",
   "ejecta_temp_dist_params_warm", "specific_heat_coeffs", "kepler_regime", "kepler_diam",
   "kepler_a", "kepler_b", "copernicus_regime", "copernicus_diam", "copernicus_a",
   "copernicus_b", "orientale_regime", "orientale_diam", "orientale_a", "orientale_b",
   "mm_mass_rate", "ctype_frac", "ctype_hydrated", "hydrated_wt_pct",
   "impact_mass_retained", "brown_c0", "brown_d0", "earth_moon_ratio", "impact_regimes",
   "is_comet", "comet_ast_frac", "comet_density", "comet_hydrated_wt_pct",
   "comet_mass_retained", "comet_speed_min", "comet_speed_max", "jfc_speed_mean",
   "jfc_speed_sd", "jfc_frac", "lpc_speed_mean", "lpc_speed_sd", "lpc_frac", "volc_mode",
   "volc_early", "volc_late", "volc_early_pct", "volc_late_pct", "volc_total_vol",
   "volc_ice_ppm", "volc_magma_density", "nk_species", "nk_cols", "solar_wind_mode",
   "faint_young_sun", "overturn_depth_present", "overturn_ancient_slope",
   "overturn_ancient_t0"]

/-- `getattr(cfg, name)`: only whether it exists matters. -/
def cfgGetattr (name : String) : Except PyErr Unit :=
  if name ∈ cfgAttrs then .ok () else .error .attributeError

/-- `read_volcanic_species` (moonpies.py:405-411): reads `cfg.species` after loading the
table; `rows` are the `(time [Gyr], mass [g])` pairs of a species column, `sort` the
descending sort. -/
def readVolcanicSpecies (sort : List (K × K) → List (K × K)) (rows : List (K × K)) :
    Except PyErr (List (K × K)) := do
  cfgGetattr "species"
  .ok (sort (rows.map (fun r => (r.1 * 1000000000, r.2 * (1 / 1000)))))

/-- One pass of the loop of `volcanic_ice_nk` (moonpies.py:1081-1087): overwrite
`[i .. j]` inclusive. -/
def setRange (l : List K) (i j : Nat) (x : K) : List K :=
  l.mapIdx (fun k y => if i ≤ k ∧ k ≤ j then x else y)

/-- Loop of `volcanic_ice_nk` (moonpies.py:1079-1087) over consecutive pairs of indices.
`none` in the result of a division by zero is not tracked: `0` steps between entries is
an error here (NumPy warns and writes `inf` or NaN). -/
def nkLoop (time : List K) (ts : K) : List (Nat × K) → List K → Except PyErr (List K)
  | (i, m) :: (j, m') :: rest, acc => do
    let ti ← pyGet time i
    let tj ← pyGet time j
    let dt := (ti - tj) / ts
    if dt = 0 then .error .zeroDivisionError
    else nkLoop time ts ((j, m') :: rest) (setRange acc i j (m / dt))
  | _, acc => .ok acc

/-- `volcanic_ice_nk` (moonpies.py:1055-1088) after the table is read: `df` are the
`(time, mass)` rows, `rint` rounds to integers; `searchsorted` on the descending model
times counts the later times. -/
def volcanicNkBody (rint : K → K) (tol ts : K) (time : List K) (df : List (K × K)) :
    Except PyErr (List K) := do
  let tmax ← match time with
    | [] => .error .valueError
    | t :: rest => .ok (rest.foldl max t)
  let df := df.filter (fun r => decide (r.1 < tmax + rtolOf tol tmax))
  let idx := df.map (fun r =>
    ((time.filter (fun t => decide (rint (r.1 / ts) < rint (t / ts)))).length, r.2))
  nkLoop time ts idx (time.map (fun _ => 0))

/-- `volcanic_ice_nk` (moonpies.py:1055-1088). -/
def volcanicNk (rint : K → K) (sort : List (K × K) → List (K × K)) (tol ts : K) (time : List K)
    (rows : List (K × K)) : Except PyErr (List K) := do
  let df ← readVolcanicSpecies sort rows
  volcanicNkBody rint tol ts time df

/-- `get_volcanic_ice` (moonpies.py:1024-1052). -/
def volcanicIce (mode : String) (ice : IceCfg K) (head : HeadCfg K) (rint : K → K)
    (sort : List (K × K) → List (K × K)) (tol ts : K) (time : List K) (rows : List (K × K)) :
    Except PyErr (List K) := do
  let mass ← if mode = "NK" then volcanicNk rint sort tol ts time rows
    else if mode = "Head" then .ok (volcanicHead head time)
    else .error .valueError
  mass.mapM (fun m => iceThickness ice m)

/-! ## Gardening depth and mixing ratio -/

/-- Fields read by `overturn_depth_time`. -/
structure OverturnCfg (K : Type) where
  impact_gardening_costello : Bool
  ice_erosion_rate : K
  timestep : K
  overturn_ancient_t0 : K
  overturn_depth_present : K
  overturn_ancient_slope : K

/-- `overturn_depth_costello_time` (moonpies.py:1522-1554) at one time. -/
def overturnCostello (cfg : OverturnCfg K) (t : K) : K :=
  let depth := 1 * cfg.overturn_depth_present
  let scaling := cfg.overturn_ancient_slope * (t - cfg.overturn_ancient_t0) + 1
  if t > cfg.overturn_ancient_t0 then depth * scaling else depth

/-- `overturn_depth_time` (moonpies.py:1488-1519). -/
def overturnDepth (cfg : OverturnCfg K) (time : List K) : List K :=
  if cfg.impact_gardening_costello then time.map (overturnCostello cfg)
  else time.map (fun _ => cfg.ice_erosion_rate * (cfg.timestep / 10000000) * 1)

end MoonPIES
