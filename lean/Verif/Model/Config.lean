import Mathlib.Algebra.Order.Ring.Rat
import Mathlib.Tactic.NormNum
import Mathlib.Data.Rat.Floor
import Mathlib.Data.Nat.Digits.Defs
import Verif.Model.Basic
import Verif.Model.PosixPath

/-!
# Run configuration

`/repo/moonpies/config.py` 16-466.  A `Cfg` object is a map from field names to values.
Floats are exact numbers (plus infinities and NaN); containers hold only scalars, which covers
every field.
-/

namespace MoonPIES

/-- Scalars inside tuples and dictionaries. -/
inductive Atom where
  | none
  | bool (b : Bool)
  | int (n : Int)
  | float (q : ℚ)
  | str (s : Str)
  deriving DecidableEq

/-- Python values a field may be given. -/
inductive PyVal where
  | none
  | bool (b : Bool)
  | int (n : Int)
  | float (q : ℚ)
  | inf (neg : Bool)
  | nan
  | str (s : Str)
  | tuple (l : List Atom)
  | list (l : List Atom)
  | dict (l : List (Str × List Atom))
  deriving DecidableEq

/-- A float. -/
inductive FloatVal where
  | fin (q : ℚ)
  | inf (neg : Bool)
  | nan

/-- A float as a value. -/
def FloatVal.toVal : FloatVal → PyVal
  | .fin q => .float q
  | .inf b => .inf b
  | .nan => .nan

/-- The type hints used in `Cfg`. -/
inductive PyType where
  | bool | int | float | str | tuple | dict
  deriving DecidableEq

/-- One annotated attribute of the dataclass. -/
structure FieldDecl where
  name : String
  type : PyType
  dflt : PyVal

/-- The outside world of one constructor call: clock, random draw, directories, file system,
and the string conversions of the interpreter. -/
structure Env where
  date : Str
  time : Str
  /-- `np.random.randint(1, 99999)` -/
  draw : Int
  cwd : Str
  /-- directory of the installed `moonpies.data` package -/
  dataDir : Str
  pathExists : Str → Bool
  userHome : Str → Option Str
  /-- `str.isnumeric` of one character -/
  isNumeric : Char → Bool
  /-- `int(s)` for a string -/
  parseInt : Str → Option Int
  /-- `float(s)` for a string -/
  parseFloat : Str → Option FloatVal
  strOf : PyVal → Str
  /-- `dict(x)` for a value that is not a dictionary -/
  dictOf : PyVal → Except PyErr (List (Str × List Atom))

/-- The annotated attributes of `Cfg` with their defaults (config.py:66-271); float literals as
decimal fractions, `sa_moon` as the float that 4π·1737400² evaluates to, `version` 1.1.1. -/
def cfgFields : List FieldDecl := [
  ⟨"run_name", .str, .str "moonpies".toList⟩,
  ⟨"version", .str, .str "1.1.1".toList⟩,
  ⟨"seed", .int, .int 0⟩,
  ⟨"run_date", .str, .str "".toList⟩,
  ⟨"run_time", .str, .str "".toList⟩,
  ⟨"verbose", .bool, .bool false⟩,
  ⟨"write", .bool, .bool true⟩,
  ⟨"write_npy", .bool, .bool false⟩,
  ⟨"strat_after_age", .bool, .bool true⟩,
  ⟨"plot", .bool, .bool false⟩,
  ⟨"mode", .str, .str "moonpies".toList⟩,
  ⟨"pole", .str, .str "s".toList⟩,
  ⟨"solar_wind_ice", .bool, .none⟩,
  ⟨"ballistic_hop_moores", .bool, .none⟩,
  ⟨"ejecta_basins", .bool, .none⟩,
  ⟨"impact_ice_basins", .bool, .none⟩,
  ⟨"impact_ice_comets", .bool, .none⟩,
  ⟨"use_volc_dep_effcy", .bool, .none⟩,
  ⟨"ballistic_sed", .bool, .none⟩,
  ⟨"impact_gardening_costello", .bool, .none⟩,
  ⟨"ballistic_hop_effcy", .float, .none⟩,
  ⟨"volc_dep_effcy", .float, .none⟩,
  ⟨"coldtrap_area_H2O", .float, .none⟩,
  ⟨"coldtrap_area_CO2", .float, .none⟩,
  ⟨"coldtrap_names", .tuple, .none⟩,
  ⟨"data_path", .str, .str "".toList⟩,
  ⟨"out_path", .str, .str "".toList⟩,
  ⟨"figs_path", .str, .str "".toList⟩,
  ⟨"crater_csv_in", .str, .str "crater_list.csv".toList⟩,
  ⟨"basin_csv_in", .str, .str "basin_list.csv".toList⟩,
  ⟨"nk_csv_in", .str, .str "needham_kring_2017_s3.csv".toList⟩,
  ⟨"bahcall_csv_in", .str, .str "bahcall_etal_2001_t2.csv".toList⟩,
  ⟨"bhop_csv_in", .str, .str "ballistic_hop_coldtraps.csv".toList⟩,
  ⟨"bsed_frac_mean_in", .str, .str "ballistic_sed_frac_melted_mean.csv".toList⟩,
  ⟨"bsed_frac_std_in", .str, .str "ballistic_sed_frac_melted_std.csv".toList⟩,
  ⟨"mplstyle_in", .str, .str ".moonpies.mplstyle".toList⟩,
  ⟨"ej_t_csv_out", .str, .str "ej_columns.csv".toList⟩,
  ⟨"ice_t_csv_out", .str, .str "ice_columns.csv".toList⟩,
  ⟨"config_py_out", .str, .str "config_moonpies_v1.1.1.py".toList⟩,
  ⟨"agegrd_npy_out", .str, .str "age_grid.npy".toList⟩,
  ⟨"ejmatrix_npy_out", .str, .str "ejecta_matrix.npy".toList⟩,
  ⟨"grdxsize", .int, .float (400000 : ℚ)⟩,
  ⟨"grdysize", .int, .float (400000 : ℚ)⟩,
  ⟨"grdstep", .int, .float (1000 : ℚ)⟩,
  ⟨"timestart", .int, .float (4250000000 : ℚ)⟩,
  ⟨"timeend", .int, .int 0⟩,
  ⟨"timestep", .int, .float (10000000 : ℚ)⟩,
  ⟨"rad_moon", .float, .float (1737400 : ℚ)⟩,
  ⟨"grav_moon", .float, .float (81 / 50)⟩,
  ⟨"sa_moon", .float, .float (4855337996720699 / 128)⟩,
  ⟨"simple2complex", .float, .float (18000 : ℚ)⟩,
  ⟨"complex2peakring", .float, .float (140000 : ℚ)⟩,
  ⟨"impactor_density", .float, .int 1300⟩,
  ⟨"impact_speed_mean", .float, .float (20000 : ℚ)⟩,
  ⟨"impact_speed_sd", .float, .float (6000 : ℚ)⟩,
  ⟨"escape_vel", .float, .float (2380 : ℚ)⟩,
  ⟨"impact_angle", .float, .int 45⟩,
  ⟨"target_density", .float, .int 1500⟩,
  ⟨"bulk_density", .float, .int 2700⟩,
  ⟨"ice_erosion_rate", .float, .float (1 / 10)⟩,
  ⟨"ej_threshold", .float, .int 4⟩,
  ⟨"basin_ej_threshold", .float, .int 5⟩,
  ⟨"ej_thickness_exp", .float, .int (-3)⟩,
  ⟨"thickness_min", .float, .float (1 / 1000)⟩,
  ⟨"neukum_pf_new", .bool, .bool true⟩,
    ⟨"neukum_pf_a_2001", .tuple, .tuple [.float (-7719 / 2500), .float (-444691 / 125000), .float
    (781027 / 1000000), .float (1021521 / 1000000), .float (-39003 / 250000), .float (-222029 /
    500000), .float (19977 / 1000000), .float (1737 / 20000), .float (-2937 / 500000), .float
    (-6809 / 1000000), .float (33 / 40000), .float (277 / 5000000)]⟩,
    ⟨"neukum_pf_a_1983", .tuple, .tuple [.float (-1923 / 625), .float (-36269 / 10000), .float
    (2183 / 5000), .float (1587 / 2000), .float (173 / 2000), .float (-2649 / 10000), .float (-83
    / 1250), .float (379 / 10000), .float (53 / 5000), .float (-11 / 5000), .float (-259 /
    500000), .float (397 / 10000000)]⟩,
  ⟨"ice_density", .float, .int 934⟩,
  ⟨"ice_melt_temp", .float, .int 273⟩,
  ⟨"ice_latent_heat", .float, .float (334000 : ℚ)⟩,
    ⟨"crater_cols", .tuple, .tuple [.str "cname".toList, .str "lat".toList, .str "lon".toList,
    .str "psr_lat".toList, .str "psr_lon".toList, .str "diam".toList, .str "age".toList, .str
    "age_low".toList, .str "age_upp".toList, .str "psr_area".toList, .str "age_ref".toList, .str
    "prio".toList, .str "notes".toList]⟩,
    ⟨"basin_cols", .tuple, .tuple [.str "cname".toList, .str "lat".toList, .str "lon".toList, .str
    "diam".toList, .str "inner_ring_diam".toList, .str "bouger_diam".toList, .str "age".toList,
    .str "age_low".toList, .str "age_upp".toList, .str "ref".toList]⟩,
  ⟨"ballistic_teq", .bool, .bool false⟩,
  ⟨"ballistic_sed_frac_lost", .float, .int 1⟩,
  ⟨"mixing_ratio_petro", .bool, .bool true⟩,
  ⟨"mixing_ratio_a", .float, .float (183 / 10000)⟩,
  ⟨"mixing_ratio_b", .float, .float (87 / 100)⟩,
  ⟨"ice_frac", .float, .float (7 / 125)⟩,
  ⟨"ke_heat_frac", .float, .float (9 / 20)⟩,
  ⟨"ke_heat_frac_speed", .float, .float (1450 : ℚ)⟩,
  ⟨"polar_ejecta_temp_init", .float, .int 140⟩,
  ⟨"basin_ejecta_temp_warm", .bool, .bool false⟩,
  ⟨"basin_ejecta_temp_init_cold", .float, .int 260⟩,
  ⟨"basin_ejecta_temp_init_warm", .float, .int 420⟩,
    ⟨"ejecta_temp_dist_params_cold", .tuple, .tuple [.float (2032000 : ℚ), .float (-7658 : ℚ),
    .float (252 : ℚ)]⟩,
    ⟨"ejecta_temp_dist_params_warm", .tuple, .tuple [.float (2449000 : ℚ), .float (-23840 : ℚ),
    .float (2381 / 5)]⟩,
    ⟨"specific_heat_coeffs", .tuple, .tuple [.float (-289 / 80), .float (27431 / 10000), .float
    (369 / 156250), .float (-617 / 50000000), .float (89093 / 10000000000000)]⟩,
  ⟨"kepler_regime", .tuple, .tuple [.float (18000 : ℚ), .float (60000 : ℚ)]⟩,
  ⟨"kepler_diam", .float, .float (31000 : ℚ)⟩,
  ⟨"kepler_a", .float, .float (51 / 10)⟩,
  ⟨"kepler_b", .float, .float (-33 / 100)⟩,
  ⟨"copernicus_regime", .tuple, .tuple [.float (60000 : ℚ), .float (300000 : ℚ)]⟩,
  ⟨"copernicus_diam", .float, .float (93000 : ℚ)⟩,
  ⟨"copernicus_a", .float, .float (120 : ℚ)⟩,
  ⟨"copernicus_b", .float, .float (-17 / 25)⟩,
  ⟨"orientale_regime", .tuple, .tuple [.float (300000 : ℚ), .float (2500000 : ℚ)]⟩,
  ⟨"orientale_diam", .float, .float (660000 : ℚ)⟩,
  ⟨"orientale_a", .float, .float (18000 : ℚ)⟩,
  ⟨"orientale_b", .float, .float (-19 / 20)⟩,
  ⟨"mm_mass_rate", .float, .float (1000000 : ℚ)⟩,
  ⟨"ctype_frac", .float, .float (9 / 25)⟩,
  ⟨"ctype_hydrated", .float, .float (2 / 3)⟩,
  ⟨"hydrated_wt_pct", .float, .float (1 / 10)⟩,
  ⟨"impact_mass_retained", .float, .float (33 / 200)⟩,
  ⟨"brown_c0", .float, .float (196 / 125)⟩,
  ⟨"brown_d0", .float, .float (27 / 10)⟩,
  ⟨"earth_moon_ratio", .float, .float (45 / 2)⟩,
    ⟨"impact_regimes", .dict, .dict [("a".toList, [.int 0, .float (1 / 100), .none, .none]),
    ("b".toList, [.float (1 / 100), .int 3, .float (1 / 10000), .float (-37 / 10)]), ("c".toList,
    [.int 100, .float (1500 : ℚ), .int 1, .float (-191 / 50)]), ("d".toList, [.float (1500 : ℚ),
    .float (15000 : ℚ), .float (100 : ℚ), .float (-9 / 5)]), ("e".toList, [.float (15000 : ℚ),
    .float (300000 : ℚ), .float (1000 : ℚ), .float (-9 / 5)])]⟩,
  ⟨"is_comet", .bool, .bool false⟩,
  ⟨"comet_ast_frac", .float, .float (1 / 20)⟩,
  ⟨"comet_density", .float, .int 600⟩,
  ⟨"comet_hydrated_wt_pct", .float, .float (1 / 5)⟩,
  ⟨"comet_mass_retained", .float, .float (13 / 200)⟩,
  ⟨"comet_speed_min", .float, .float (10200 : ℚ)⟩,
  ⟨"comet_speed_max", .float, .float (72000 : ℚ)⟩,
  ⟨"jfc_speed_mean", .float, .float (20000 : ℚ)⟩,
  ⟨"jfc_speed_sd", .float, .float (5000 : ℚ)⟩,
  ⟨"jfc_frac", .float, .float (7 / 8)⟩,
  ⟨"lpc_speed_mean", .float, .float (54000 : ℚ)⟩,
  ⟨"lpc_speed_sd", .float, .float (5000 : ℚ)⟩,
  ⟨"lpc_frac", .float, .float (1 / 8)⟩,
  ⟨"volc_mode", .str, .str "Head".toList⟩,
  ⟨"volc_early", .tuple, .tuple [.float (4000000000 : ℚ), .float (3000000000 : ℚ)]⟩,
  ⟨"volc_late", .tuple, .tuple [.float (3000000000 : ℚ), .float (2000000000 : ℚ)]⟩,
  ⟨"volc_early_pct", .float, .float (3 / 4)⟩,
  ⟨"volc_late_pct", .float, .float (1 / 4)⟩,
  ⟨"volc_total_vol", .float, .float (10000000 : ℚ)⟩,
  ⟨"volc_ice_ppm", .float, .int 10⟩,
  ⟨"volc_magma_density", .float, .int 3000⟩,
  ⟨"nk_species", .str, .str "min_h2o".toList⟩,
    ⟨"nk_cols", .tuple, .tuple [.str "time".toList, .str "tot_vol".toList, .str
    "sphere_mass".toList, .str "min_co".toList, .str "max_co".toList, .str "min_h2o".toList, .str
    "max_h2o".toList, .str "min_h".toList, .str "max_h".toList, .str "min_s".toList, .str
    "max_s".toList, .str "min_sum".toList, .str "max_sum".toList, .str "min_psurf".toList, .str
    "max_psurf".toList, .str "min_atm_loss".toList, .str "max_atm_loss".toList]⟩,
  ⟨"solar_wind_mode", .str, .str "Benna".toList⟩,
  ⟨"faint_young_sun", .bool, .bool true⟩,
  ⟨"overturn_depth_present", .float, .float (9 / 100)⟩,
  ⟨"overturn_ancient_slope", .float, .float (1 / 1000000000)⟩,
  ⟨"overturn_ancient_t0", .float, .float (3000000000 : ℚ)⟩]

/-- `MODE_DEFAULTS['cannon']` (config.py:17-27). -/
def modeCannon : List (String × PyVal) := [
  ("solar_wind_ice", .bool false),
  ("ballistic_hop_moores", .bool false),
  ("ejecta_basins", .bool false),
  ("impact_ice_basins", .bool false),
  ("impact_ice_comets", .bool false),
  ("use_volc_dep_effcy", .bool false),
  ("ballistic_sed", .bool false),
  ("impact_gardening_costello", .bool false),
  ("impact_speed_mean", .float (20000 : ℚ))]

/-- `MODE_DEFAULTS['moonpies']` (config.py:28-38). -/
def modeMoonpies : List (String × PyVal) := [
  ("solar_wind_ice", .bool true),
  ("ballistic_hop_moores", .bool true),
  ("ejecta_basins", .bool true),
  ("impact_ice_basins", .bool true),
  ("impact_ice_comets", .bool true),
  ("use_volc_dep_effcy", .bool true),
  ("ballistic_sed", .bool true),
  ("impact_gardening_costello", .bool true),
  ("impact_speed_mean", .float (17000 : ℚ))]

/-- `POLE_DEFAULTS['s']` (config.py:42-52). -/
def poleSouth : List (String × PyVal) := [
  ("ballistic_hop_effcy", .float (27 / 500)),
  ("volc_dep_effcy", .float (13 / 50)),
  ("coldtrap_area_H2O", .float (13000000000 : ℚ)),
  ("coldtrap_area_CO2", .float (104000000 : ℚ)),
  ("coldtrap_names", .tuple [.str "Haworth".toList, .str "Shoemaker".toList,
    .str "Faustini".toList, .str "Shackleton".toList, .str "Slater".toList, .str "Amundsen".toList,
    .str "Cabeus".toList, .str "Sverdrup".toList, .str "de Gerlache".toList,
    .str "Idel'son L".toList, .str "Wiechert J".toList, .str "Cabeus B".toList])]

/-- `POLE_DEFAULTS['n']` (config.py:53-61). -/
def poleNorth : List (String × PyVal) := [
  ("ballistic_hop_effcy", .float (27 / 1000)),
  ("volc_dep_effcy", .float (3 / 20)),
  ("coldtrap_area_H2O", .float (5300000000 : ℚ)),
  ("coldtrap_area_CO2", .int 0),
  ("coldtrap_names", .tuple [.str "Fibiger".toList, .str "Hermite".toList, .str "Hermite A".toList,
    .str "Hevesy".toList, .str "Lovelace".toList, .str "Nansen A".toList, .str "Nansen F".toList,
    .str "Rozhdestvenskiy U".toList, .str "Rozhdestvenskiy W".toList, .str "Sylvester".toList])]

/-- Indexing a dictionary with string keys by any value: unhashable keys raise `TypeError`,
unknown ones `KeyError`. -/
def dictGet (d : List (Str × List (String × PyVal))) (k : PyVal) :
    Except PyErr (List (String × PyVal)) :=
  match k with
  | .str s => match d.find? (fun e => decide (e.1 = s)) with
    | some e => .ok e.2
    | none => .error .keyError
  | .list _ => .error .typeError
  | .dict _ => .error .typeError
  | _ => .error .keyError

/-- The attributes of an instance. -/
abbrev CfgVals := String → PyVal

/-- `_sudo_setattr(self, k, v)`. -/
def setAttr (c : CfgVals) (k : String) (v : PyVal) : CfgVals := fun f => if f = k then v else c f

/-- `int(x)` truncates towards zero. -/
def truncRat (q : ℚ) : Int := if 0 ≤ q then ⌊q⌋ else ⌈q⌉

/-- `int(value)`. -/
def pyIntOf (env : Env) : PyVal → Except PyErr Int
  | .bool b => .ok (if b then 1 else 0)
  | .int n => .ok n
  | .float q => .ok (truncRat q)
  | .inf _ => .error .overflowError
  | .nan => .error .valueError
  | .str s => match env.parseInt s with
    | some n => .ok n
    | none => .error .valueError
  | _ => .error .typeError

/-- `float(value)`; integers beyond the float range raise `OverflowError`. -/
def pyFloat (env : Env) : PyVal → Except PyErr PyVal
  | .bool b => .ok (.float (if b then 1 else 0))
  | .int n => if n.natAbs < 2 ^ 1024 then .ok (.float n) else .error .overflowError
  | .float q => .ok (.float q)
  | .inf b => .ok (.inf b)
  | .nan => .ok .nan
  | .str s => match env.parseFloat s with
    | some v => .ok v.toVal
    | none => .error .valueError
  | _ => .error .typeError

/-- `bool(value)`. -/
def pyBool : PyVal → Bool
  | .none => false
  | .bool b => b
  | .int n => decide (n ≠ 0)
  | .float q => decide (q ≠ 0)
  | .inf _ => true
  | .nan => true
  | .str s => decide (s ≠ [])
  | .tuple l => decide (l ≠ [])
  | .list l => decide (l ≠ [])
  | .dict l => decide (l ≠ [])

/-- `tuple(value)`. -/
def pyTuple : PyVal → Except PyErr (List Atom)
  | .str s => .ok (s.map (fun c => .str [c]))
  | .tuple l => .ok l
  | .list l => .ok l
  | .dict l => .ok (l.map (fun e => .str e.1))
  | _ => .error .typeError

/-- `isinstance(value, type)`; `bool` is a subclass of `int`. -/
def isInstance : PyType → PyVal → Bool
  | .bool, .bool _ => true
  | .int, .int _ => true
  | .int, .bool _ => true
  | .float, .float _ => true
  | .float, .inf _ => true
  | .float, .nan => true
  | .str, .str _ => true
  | .tuple, .tuple _ => true
  | .dict, .dict _ => true
  | _, _ => false

/-- `cfg_field.type(value)`. -/
def castTo (env : Env) (ty : PyType) (v : PyVal) : Except PyErr PyVal :=
  match ty with
  | .bool => .ok (.bool (pyBool v))
  | .int => (pyIntOf env v).map .int
  | .float => pyFloat env v
  | .str => .ok (.str (env.strOf v))
  | .tuple => (pyTuple v).map .tuple
  | .dict => (env.dictOf v).map .dict

/-- One pass of the loop of `_enforce_dataclass_types` (config.py:334-337).  A `ValueError` is
re-raised with another message, so the kind of error is the same. -/
def enforceOne (env : Env) (d : FieldDecl) (v : PyVal) : Except PyErr PyVal :=
  if isInstance d.type v then .ok v else castTo env d.type v

/-- `_enforce_dataclass_types` (config.py:326-341). -/
def enforceTypes (env : Env) : List FieldDecl → CfgVals → Except PyErr CfgVals
  | [], c => .ok c
  | d :: ds, c => match enforceOne env d (c d.name) with
    | .error e => .error e
    | .ok v => enforceTypes env ds (setAttr c d.name v)

/-- `_get_random_seed` (config.py:370-378); `OverflowError` is not caught. -/
def getRandomSeed (env : Env) (seed : PyVal) : Except PyErr Int :=
  match pyIntOf env seed with
  | .ok n => .ok (if n = 0 then env.draw else n)
  | .error .typeError => .ok env.draw
  | .error .valueError => .ok env.draw
  | .error e => .error e

/-- `_set_seed_time` (config.py:274-278). -/
def setSeedTime (env : Env) (c : CfgVals) : Except PyErr CfgVals :=
  match getRandomSeed env (c "seed") with
  | .error e => .error e
  | .ok n => .ok (setAttr (setAttr (setAttr c "seed" (.int n)) "run_date" (.str env.date))
      "run_time" (.str env.time))

/-- Loop of `_set_mode_defaults` and `_set_pole_defaults` (config.py:283-285, 290-292). -/
def fillNone (c : CfgVals) : List (String × PyVal) → CfgVals
  | [] => c
  | (p, v) :: rest => fillNone (if c p = .none then setAttr c p v else c) rest

/-- `_set_mode_defaults` (config.py:281-285). -/
def setModeDefaults (c : CfgVals) : Except PyErr CfgVals :=
  match dictGet [("cannon".toList, modeCannon), ("moonpies".toList, modeMoonpies)] (c "mode") with
  | .error e => .error e
  | .ok d => .ok (fillNone c d)

/-- `_set_pole_defaults` (config.py:288-292). -/
def setPoleDefaults (c : CfgVals) : Except PyErr CfgVals :=
  match dictGet [("s".toList, poleSouth), ("n".toList, poleNorth)] (c "pole") with
  | .error e => .error e
  | .ok d => .ok (fillNone c d)

/-- Decimal digits of a natural number. -/
def decimal (n : Nat) : Str :=
  if n = 0 then ['0'] else (Nat.digits 10 n).reverse.map Nat.digitChar

/-- `f'{seed:05d}'`: zero padded to width 5, the sign included. -/
def fmtSeed (n : Int) : Str :=
  let d := decimal n.natAbs
  if 0 ≤ n then List.replicate (5 - d.length) '0' ++ d
  else '-' :: (List.replicate (4 - d.length) '0' ++ d)

/-- `path.basename(path.normpath(p)).isnumeric()`. -/
def numericBase (env : Env) (p : Str) : Bool :=
  decide (baseName (normPath p) ≠ []) && (baseName (normPath p)).all env.isNumeric

/-- `_get_out_path` on strings (config.py:406-419). -/
def outPathStr (env : Env) (out runSeed runName : Str) : Str :=
  (if out = [] then
    pathJoin (pathJoin (pathJoin (pathJoin env.cwd "out".toList) env.date) runName) runSeed
  else if runSeed <:+: out then out
  else pathJoin (if numericBase env out then dirName (normPath out) else out) runSeed) ++ ['/']

/-- `_get_out_path` (config.py:406-419).  A value that is not a string raises `TypeError`: either
`in`, `normpath` or `+` fails.  `run_name` is only used for the default path. -/
def getOutPath (env : Env) (out : PyVal) (seed : Int) (runName : PyVal) : Except PyErr Str :=
  match out, runName with
  | .str s, .str r => .ok (outPathStr env s (fmtSeed seed) r)
  | .str s, _ => if s = [] then .error .typeError else .ok (outPathStr env s (fmtSeed seed) [])
  | _, _ => .error .typeError

/-- `_set_path_defaults` (config.py:294-298, 390-403). -/
def setPathDefaults (env : Env) (seed : Int) (c : CfgVals) : Except PyErr CfgVals :=
  match getOutPath env (c "out_path") seed (c "run_name") with
  | .error e => .error e
  | .ok out =>
    let data := if c "data_path" ≠ .str [] then c "data_path" else .str (env.dataDir ++ ['/'])
    let figs := if c "figs_path" ≠ .str [] then c "figs_path" else
      .str (absPath env.cwd (pathJoin (pathJoin (pathJoin out "..".toList) "..".toList)
        "figures".toList) ++ ['/'])
    .ok (setAttr (setAttr (setAttr c "data_path" data) "out_path" (.str out)) "figs_path" figs)

/-- What `_make_paths_absolute` does to one field (config.py:309-324). -/
def absField (env : Env) (data : PyVal) (out : Str) (name : String) (v : PyVal) :
    Except PyErr PyVal :=
  match v with
  | .str s =>
    if "_in".toList.isSuffixOf name.toList then
      match data with
      | .str dp => .ok (.str (if env.pathExists s then s else
          absPath env.cwd (expandUser env.userHome (pathJoin dp (baseName s)))))
      | _ => .error .typeError
    else if "_out".toList.isSuffixOf name.toList then
      .ok (.str (if env.pathExists s then s else
        absPath env.cwd (expandUser env.userHome (pathJoin out (baseName s)))))
    else if "_path".toList.isSuffixOf name.toList then
      .ok (.str (if env.pathExists s then s else absPath env.cwd (expandUser env.userHome s)))
    else .ok v
  | _ => .ok v

/-- `_make_paths_absolute` (config.py:301-324). -/
def makeAbsolute (env : Env) (data : PyVal) (out : Str) :
    List FieldDecl → CfgVals → Except PyErr CfgVals
  | [], c => .ok c
  | d :: ds, c => match absField env data out d.name (c d.name) with
    | .error e => .error e
    | .ok v => makeAbsolute env data out ds (setAttr c d.name v)

/-- The generated `__init__`: keyword arguments over the defaults; an unknown keyword raises
`TypeError`. -/
def initFields (kwargs : List (String × PyVal)) : Except PyErr CfgVals :=
  if kwargs.all (fun kv => cfgFields.any (fun d => decide (d.name = kv.1))) then
    .ok (fun f => match kwargs.find? (fun kv => decide (kv.1 = f)) with
      | some kv => kv.2
      | none => match cfgFields.find? (fun d => decide (d.name = f)) with
        | some d => d.dflt
        | none => .none)
  else .error .typeError

/-- `out_path` and `seed` are a string and an integer when the later steps read them. -/
def strVal : PyVal → Str
  | .str s => s
  | _ => []

/-- See `strVal`. -/
def intVal : PyVal → Int
  | .int n => n
  | _ => 0

/-- `Cfg(**kwargs)`: `__init__` then `__post_init__` (config.py:343-350). -/
def makeCfg (env : Env) (kwargs : List (String × PyVal)) : Except PyErr CfgVals := do
  let c0 ← initFields kwargs
  let c1 ← setSeedTime env c0
  let c2 ← setModeDefaults c1
  let c3 ← setPoleDefaults c2
  let c4 ← setPathDefaults env (intVal (c3 "seed")) c3
  let c5 ← makeAbsolute env (c4 "data_path") (strVal (c4 "out_path")) cfgFields c4
  enforceTypes env cfgFields c5

/-- `Cfg.to_dict` (config.py:353-355): every field with its value. -/
def toDict (c : CfgVals) : List (String × PyVal) := cfgFields.map (fun d => (d.name, c d.name))

/-- `from_dict` (config.py:445-447). -/
def fromDict (env : Env) (d : List (String × PyVal)) : Except PyErr CfgVals := makeCfg env d

/-- `get_comet_cfg` (moonpies.py:1591-1614). -/
def getCometCfg (env : Env) (c : CfgVals) : Except PyErr CfgVals :=
  fromDict env ((toDict c).map (fun kv =>
    if kv.1 = "is_comet" then (kv.1, .bool true)
    else if kv.1 = "hydrated_wt_pct" then (kv.1, c "comet_hydrated_wt_pct")
    else if kv.1 = "impactor_density" then (kv.1, c "comet_density")
    else if kv.1 = "impact_mass_retained" then (kv.1, c "comet_mass_retained")
    else kv))

/-- `read_custom_cfg` (config.py:431-442); `file` is the dictionary read from the file, if a
path was given. -/
def readCustomCfg (env : Env) (file : Option (List (String × PyVal))) (seed : Option Int) :
    Except PyErr CfgVals :=
  let d := match file with
    | none => []
    | some d => d
  match seed with
  | none => fromDict env d
  | some n => fromDict env (PyDict.set d "seed" (.int n))

end MoonPIES
