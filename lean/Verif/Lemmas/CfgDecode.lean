import Mathlib.Tactic.NormNum
import Verif.Model.CfgDecode

/-!
# Decoding the values of a standard configuration
-/

namespace MoonPIES

/-- The fields of a run that neither the mode nor the pole nor the seed changes, as they come out
of the construction. -/
def commonTable : List (String × PyVal) := [
    ("strat_after_age", .bool true),
    ("is_comet", .bool false),
    ("solar_wind_mode", .str "Benna".toList),
    ("volc_mode", .str "Head".toList),
    ("faint_young_sun", .bool true),
    ("neukum_pf_new", .bool true),
    ("mixing_ratio_petro", .bool true),
    ("basin_ejecta_temp_warm", .bool false),
    ("timestart", .int (4250000000)),
    ("timeend", .int (0)),
    ("timestep", .int (10000000)),
    ("ice_density", .float (934)),
    ("simple2complex", .float (18000)),
    ("complex2peakring", .float (140000)),
    ("rad_moon", .float (1737400)),
    ("grav_moon", .float (81 / 50)),
    ("sa_moon", .float (4855337996720699 / 128)),
    ("impact_angle", .float (45)),
    ("target_density", .float (1500)),
    ("impactor_density", .float (1300)),
    ("ej_thickness_exp", .float (-3)),
    ("ej_threshold", .float (4)),
    ("basin_ej_threshold", .float (5)),
    ("thickness_min", .float (1 / 1000)),
    ("ice_erosion_rate", .float (1 / 10)),
    ("neukum_pf_a_2001", .tuple [.float (-7719 / 2500), .float (-444691 / 125000), .float (781027
    / 1000000), .float (1021521 / 1000000), .float (-39003 / 250000), .float (-222029 / 500000),
    .float (19977 / 1000000), .float (1737 / 20000), .float (-2937 / 500000), .float (-6809 /
    1000000), .float (33 / 40000), .float (277 / 5000000)]),
    ("neukum_pf_a_1983", .tuple [.float (-1923 / 625), .float (-36269 / 10000), .float (2183 /
    5000), .float (1587 / 2000), .float (173 / 2000), .float (-2649 / 10000), .float (-83 / 1250),
    .float (379 / 10000), .float (53 / 5000), .float (-11 / 5000), .float (-259 / 500000), .float
    (397 / 10000000)]),
    ("impact_regimes", .dict [("a".toList, [.int (0), .float (1 / 100), .none, .none]),
    ("b".toList, [.float (1 / 100), .int (3), .float (1 / 10000), .float (-37 / 10)]),
    ("c".toList, [.int (100), .float (1500), .int (1), .float (-191 / 50)]), ("d".toList, [.float
    (1500), .float (15000), .float (100), .float (-9 / 5)]), ("e".toList, [.float (15000), .float
    (300000), .float (1000), .float (-9 / 5)])]),
    ("mm_mass_rate", .float (1000000)),
    ("ctype_frac", .float (9 / 25)),
    ("ctype_hydrated", .float (2 / 3)),
    ("hydrated_wt_pct", .float (1 / 10)),
    ("impact_mass_retained", .float (33 / 200)),
    ("brown_c0", .float (196 / 125)),
    ("brown_d0", .float (27 / 10)),
    ("earth_moon_ratio", .float (45 / 2)),
    ("impact_speed_mean", .float (20000)),
    ("impact_speed_sd", .float (6000)),
    ("escape_vel", .float (2380)),
    ("comet_ast_frac", .float (1 / 20)),
    ("comet_density", .float (600)),
    ("comet_hydrated_wt_pct", .float (1 / 5)),
    ("comet_mass_retained", .float (13 / 200)),
    ("comet_speed_min", .float (10200)),
    ("comet_speed_max", .float (72000)),
    ("jfc_speed_mean", .float (20000)),
    ("jfc_speed_sd", .float (5000)),
    ("jfc_frac", .float (7 / 8)),
    ("lpc_speed_mean", .float (54000)),
    ("lpc_speed_sd", .float (5000)),
    ("lpc_frac", .float (1 / 8)),
    ("volc_early", .tuple [.float (4000000000), .float (3000000000)]),
    ("volc_late", .tuple [.float (3000000000), .float (2000000000)]),
    ("volc_early_pct", .float (3 / 4)),
    ("volc_late_pct", .float (1 / 4)),
    ("volc_total_vol", .float (10000000)),
    ("volc_ice_ppm", .float (10)),
    ("volc_magma_density", .float (3000)),
    ("ballistic_sed_frac_lost", .float (1)),
    ("mixing_ratio_a", .float (183 / 10000)),
    ("mixing_ratio_b", .float (87 / 100)),
    ("polar_ejecta_temp_init", .float (140)),
    ("basin_ejecta_temp_init_warm", .float (420)),
    ("basin_ejecta_temp_init_cold", .float (260)),
    ("overturn_depth_present", .float (9 / 100)),
    ("overturn_ancient_slope", .float (1 / 1000000000)),
    ("overturn_ancient_t0", .float (3000000000))]

/-- What the mode decides. -/
def switchTable (b : Bool) : List (String × PyVal) := [
  ("solar_wind_ice", .bool b), ("ballistic_hop_moores", .bool b), ("ejecta_basins", .bool b),
  ("impact_ice_basins", .bool b), ("impact_ice_comets", .bool b), ("use_volc_dep_effcy", .bool b),
  ("ballistic_sed", .bool b), ("impact_gardening_costello", .bool b)]

/-- What the pole decides. -/
def poleTable (e v a b : ℚ) (names : List Atom) : List (String × PyVal) := [
  ("ballistic_hop_effcy", .float e), ("volc_dep_effcy", .float v), ("coldtrap_area_H2O", .float a),
  ("coldtrap_area_CO2", .float b), ("coldtrap_names", .tuple names)]

theorem decode_std (c : CfgVals) (n : Int) (m : Str) (sw : Bool) (e v a b : ℚ) (names : List Atom)
    (ns : List String) (hns : names.mapM Atom.text = some ns)
    (hseed : c "seed" = .int n) (hmode : c "mode" = .str m)
    (hc : ∀ fv ∈ commonTable, c fv.1 = fv.2) (hs : ∀ fv ∈ switchTable sw, c fv.1 = fv.2)
    (hp : ∀ fv ∈ poleTable e v a b names, c fv.1 = fv.2) :
    RunCfg.ofVals c = some { RunCfg.default n with
      mode := String.ofList m, solar_wind_ice := sw, ballistic_hop_moores := sw, ejecta_basins := sw,
      impact_ice_basins := sw, impact_ice_comets := sw, use_volc_dep_effcy := sw,
      ballistic_sed := sw, impact_gardening_costello := sw, ballistic_hop_effcy := e,
      volc_dep_effcy := v, coldtrap_area_H2O := a, coldtrap_area_CO2 := b, coldtrap_names := ns } := by
  simp only [commonTable, List.forall_mem_cons] at hc
  simp only [switchTable, List.forall_mem_cons] at hs
  simp only [poleTable, List.forall_mem_cons] at hp
  obtain ⟨h0, h1, h2, h3, h4, h5, h6, h7, h8, h9, h10, h11, h12, h13, h14, h15, h16, h17, h18,
    h19, h20, h21, h22, h23, h24, h25, h26, h27, h28, h29, h30, h31, h32, h33, h34, h35,
    h36, h37, h38, h39, h40, h41, h42, h43, h44, h45, h46, h47, h48, h49, h50, h51, h52,
    h53, h54, h55, h56, h57, h58, h59, h60, h61, h62, h63, h64, h65, h66, -⟩ := hc
  obtain ⟨s0, s1, s2, s3, s4, s5, s6, s7, -⟩ := hs
  obtain ⟨p0, p1, p2, p3, p4, -⟩ := hp
  unfold RunCfg.ofVals
  rw [hseed, hmode,
    h0, h1, h2, h3, h4, h5, h6, h7, h8, h9, h10, h11, h12, h13, h14, h15, h16, h17, h18,
    h19, h20, h21, h22, h23, h24, h25, h26, h27, h28, h29, h30, h31, h32, h33, h34, h35,
    h36, h37, h38, h39, h40, h41, h42, h43, h44, h45, h46, h47, h48, h49, h50, h51, h52,
    h53, h54, h55, h56, h57, h58, h59, h60, h61, h62, h63, h64, h65, h66,
    s0, s1, s2, s3, s4, s5, s6, s7, p0, p1, p2, p3, p4]
  simp only [asNum, asBool, asStr, asInt, asNames, asNums, asPair, asRegimes, hns, bind,
    Option.bind, pure, Atom.num, List.mapM_cons, List.mapM_nil, List.filterMap_cons,
    List.filterMap_nil, regimeEntry]
  norm_num [RunCfg.default]

/-- The reading of each attribute, one equation per field. -/
structure Reads (c : CfgVals) (r : RunCfg) : Prop where
  seed : asInt (c "seed") = some r.seed
  mode : asStr (c "mode") = some r.mode
  strat_after_age : asBool (c "strat_after_age") = some r.strat_after_age
  solar_wind_ice : asBool (c "solar_wind_ice") = some r.solar_wind_ice
  ballistic_hop_moores : asBool (c "ballistic_hop_moores") = some r.ballistic_hop_moores
  ejecta_basins : asBool (c "ejecta_basins") = some r.ejecta_basins
  impact_ice_basins : asBool (c "impact_ice_basins") = some r.impact_ice_basins
  impact_ice_comets : asBool (c "impact_ice_comets") = some r.impact_ice_comets
  use_volc_dep_effcy : asBool (c "use_volc_dep_effcy") = some r.use_volc_dep_effcy
  ballistic_sed : asBool (c "ballistic_sed") = some r.ballistic_sed
  impact_gardening_costello : asBool (c "impact_gardening_costello") = some r.impact_gardening_costello
  is_comet : asBool (c "is_comet") = some r.is_comet
  solar_wind_mode : asStr (c "solar_wind_mode") = some r.solar_wind_mode
  volc_mode : asStr (c "volc_mode") = some r.volc_mode
  faint_young_sun : asBool (c "faint_young_sun") = some r.faint_young_sun
  neukum_pf_new : asBool (c "neukum_pf_new") = some r.neukum_pf_new
  mixing_ratio_petro : asBool (c "mixing_ratio_petro") = some r.mixing_ratio_petro
  basin_ejecta_temp_warm : asBool (c "basin_ejecta_temp_warm") = some r.basin_ejecta_temp_warm
  coldtrap_names : asNames (c "coldtrap_names") = some r.coldtrap_names
  timestart : asNum (c "timestart") = some r.timestart
  timeend : asNum (c "timeend") = some r.timeend
  timestep : asNum (c "timestep") = some r.timestep
  ballistic_hop_effcy : asNum (c "ballistic_hop_effcy") = some r.ballistic_hop_effcy
  volc_dep_effcy : asNum (c "volc_dep_effcy") = some r.volc_dep_effcy
  coldtrap_area_H2O : asNum (c "coldtrap_area_H2O") = some r.coldtrap_area_H2O
  coldtrap_area_CO2 : asNum (c "coldtrap_area_CO2") = some r.coldtrap_area_CO2
  ice_density : asNum (c "ice_density") = some r.ice_density
  simple2complex : asNum (c "simple2complex") = some r.simple2complex
  complex2peakring : asNum (c "complex2peakring") = some r.complex2peakring
  rad_moon : asNum (c "rad_moon") = some r.rad_moon
  grav_moon : asNum (c "grav_moon") = some r.grav_moon
  sa_moon : asNum (c "sa_moon") = some r.sa_moon
  impact_angle : asNum (c "impact_angle") = some r.impact_angle
  target_density : asNum (c "target_density") = some r.target_density
  impactor_density : asNum (c "impactor_density") = some r.impactor_density
  ej_thickness_exp : asNum (c "ej_thickness_exp") = some r.ej_thickness_exp
  ej_threshold : asNum (c "ej_threshold") = some r.ej_threshold
  basin_ej_threshold : asNum (c "basin_ej_threshold") = some r.basin_ej_threshold
  thickness_min : asNum (c "thickness_min") = some r.thickness_min
  ice_erosion_rate : asNum (c "ice_erosion_rate") = some r.ice_erosion_rate
  neukum_pf_a_2001 : asNums (c "neukum_pf_a_2001") = some r.neukum_pf_a_2001
  neukum_pf_a_1983 : asNums (c "neukum_pf_a_1983") = some r.neukum_pf_a_1983
  impact_regimes : asRegimes (c "impact_regimes") = some r.impact_regimes
  mm_mass_rate : asNum (c "mm_mass_rate") = some r.mm_mass_rate
  ctype_frac : asNum (c "ctype_frac") = some r.ctype_frac
  ctype_hydrated : asNum (c "ctype_hydrated") = some r.ctype_hydrated
  hydrated_wt_pct : asNum (c "hydrated_wt_pct") = some r.hydrated_wt_pct
  impact_mass_retained : asNum (c "impact_mass_retained") = some r.impact_mass_retained
  brown_c0 : asNum (c "brown_c0") = some r.brown_c0
  brown_d0 : asNum (c "brown_d0") = some r.brown_d0
  earth_moon_ratio : asNum (c "earth_moon_ratio") = some r.earth_moon_ratio
  impact_speed_mean : asNum (c "impact_speed_mean") = some r.impact_speed_mean
  impact_speed_sd : asNum (c "impact_speed_sd") = some r.impact_speed_sd
  escape_vel : asNum (c "escape_vel") = some r.escape_vel
  comet_ast_frac : asNum (c "comet_ast_frac") = some r.comet_ast_frac
  comet_density : asNum (c "comet_density") = some r.comet_density
  comet_hydrated_wt_pct : asNum (c "comet_hydrated_wt_pct") = some r.comet_hydrated_wt_pct
  comet_mass_retained : asNum (c "comet_mass_retained") = some r.comet_mass_retained
  comet_speed_min : asNum (c "comet_speed_min") = some r.comet_speed_min
  comet_speed_max : asNum (c "comet_speed_max") = some r.comet_speed_max
  jfc_speed_mean : asNum (c "jfc_speed_mean") = some r.jfc_speed_mean
  jfc_speed_sd : asNum (c "jfc_speed_sd") = some r.jfc_speed_sd
  jfc_frac : asNum (c "jfc_frac") = some r.jfc_frac
  lpc_speed_mean : asNum (c "lpc_speed_mean") = some r.lpc_speed_mean
  lpc_speed_sd : asNum (c "lpc_speed_sd") = some r.lpc_speed_sd
  lpc_frac : asNum (c "lpc_frac") = some r.lpc_frac
  volc_early : asPair (c "volc_early") = some r.volc_early
  volc_late : asPair (c "volc_late") = some r.volc_late
  volc_early_pct : asNum (c "volc_early_pct") = some r.volc_early_pct
  volc_late_pct : asNum (c "volc_late_pct") = some r.volc_late_pct
  volc_total_vol : asNum (c "volc_total_vol") = some r.volc_total_vol
  volc_ice_ppm : asNum (c "volc_ice_ppm") = some r.volc_ice_ppm
  volc_magma_density : asNum (c "volc_magma_density") = some r.volc_magma_density
  ballistic_sed_frac_lost : asNum (c "ballistic_sed_frac_lost") = some r.ballistic_sed_frac_lost
  mixing_ratio_a : asNum (c "mixing_ratio_a") = some r.mixing_ratio_a
  mixing_ratio_b : asNum (c "mixing_ratio_b") = some r.mixing_ratio_b
  polar_ejecta_temp_init : asNum (c "polar_ejecta_temp_init") = some r.polar_ejecta_temp_init
  basin_ejecta_temp_init_warm : asNum (c "basin_ejecta_temp_init_warm") = some r.basin_ejecta_temp_init_warm
  basin_ejecta_temp_init_cold : asNum (c "basin_ejecta_temp_init_cold") = some r.basin_ejecta_temp_init_cold
  overturn_depth_present : asNum (c "overturn_depth_present") = some r.overturn_depth_present
  overturn_ancient_slope : asNum (c "overturn_ancient_slope") = some r.overturn_ancient_slope
  overturn_ancient_t0 : asNum (c "overturn_ancient_t0") = some r.overturn_ancient_t0
  species : r.ice_species = "H2O"

theorem reads_of {c : CfgVals} {r : RunCfg} (h : RunCfg.ofVals c = some r) : Reads c r := by
  unfold RunCfg.ofVals at h
  obtain ⟨x0, h0, h⟩ := Option.bind_eq_some_iff.1 h
  obtain ⟨x1, h1, h⟩ := Option.bind_eq_some_iff.1 h
  obtain ⟨x2, h2, h⟩ := Option.bind_eq_some_iff.1 h
  obtain ⟨x3, h3, h⟩ := Option.bind_eq_some_iff.1 h
  obtain ⟨x4, h4, h⟩ := Option.bind_eq_some_iff.1 h
  obtain ⟨x5, h5, h⟩ := Option.bind_eq_some_iff.1 h
  obtain ⟨x6, h6, h⟩ := Option.bind_eq_some_iff.1 h
  obtain ⟨x7, h7, h⟩ := Option.bind_eq_some_iff.1 h
  obtain ⟨x8, h8, h⟩ := Option.bind_eq_some_iff.1 h
  obtain ⟨x9, h9, h⟩ := Option.bind_eq_some_iff.1 h
  obtain ⟨x10, h10, h⟩ := Option.bind_eq_some_iff.1 h
  obtain ⟨x11, h11, h⟩ := Option.bind_eq_some_iff.1 h
  obtain ⟨x12, h12, h⟩ := Option.bind_eq_some_iff.1 h
  obtain ⟨x13, h13, h⟩ := Option.bind_eq_some_iff.1 h
  obtain ⟨x14, h14, h⟩ := Option.bind_eq_some_iff.1 h
  obtain ⟨x15, h15, h⟩ := Option.bind_eq_some_iff.1 h
  obtain ⟨x16, h16, h⟩ := Option.bind_eq_some_iff.1 h
  obtain ⟨x17, h17, h⟩ := Option.bind_eq_some_iff.1 h
  obtain ⟨x18, h18, h⟩ := Option.bind_eq_some_iff.1 h
  obtain ⟨x19, h19, h⟩ := Option.bind_eq_some_iff.1 h
  obtain ⟨x20, h20, h⟩ := Option.bind_eq_some_iff.1 h
  obtain ⟨x21, h21, h⟩ := Option.bind_eq_some_iff.1 h
  obtain ⟨x22, h22, h⟩ := Option.bind_eq_some_iff.1 h
  obtain ⟨x23, h23, h⟩ := Option.bind_eq_some_iff.1 h
  obtain ⟨x24, h24, h⟩ := Option.bind_eq_some_iff.1 h
  obtain ⟨x25, h25, h⟩ := Option.bind_eq_some_iff.1 h
  obtain ⟨x26, h26, h⟩ := Option.bind_eq_some_iff.1 h
  obtain ⟨x27, h27, h⟩ := Option.bind_eq_some_iff.1 h
  obtain ⟨x28, h28, h⟩ := Option.bind_eq_some_iff.1 h
  obtain ⟨x29, h29, h⟩ := Option.bind_eq_some_iff.1 h
  obtain ⟨x30, h30, h⟩ := Option.bind_eq_some_iff.1 h
  obtain ⟨x31, h31, h⟩ := Option.bind_eq_some_iff.1 h
  obtain ⟨x32, h32, h⟩ := Option.bind_eq_some_iff.1 h
  obtain ⟨x33, h33, h⟩ := Option.bind_eq_some_iff.1 h
  obtain ⟨x34, h34, h⟩ := Option.bind_eq_some_iff.1 h
  obtain ⟨x35, h35, h⟩ := Option.bind_eq_some_iff.1 h
  obtain ⟨x36, h36, h⟩ := Option.bind_eq_some_iff.1 h
  obtain ⟨x37, h37, h⟩ := Option.bind_eq_some_iff.1 h
  obtain ⟨x38, h38, h⟩ := Option.bind_eq_some_iff.1 h
  obtain ⟨x39, h39, h⟩ := Option.bind_eq_some_iff.1 h
  obtain ⟨x40, h40, h⟩ := Option.bind_eq_some_iff.1 h
  obtain ⟨x41, h41, h⟩ := Option.bind_eq_some_iff.1 h
  obtain ⟨x42, h42, h⟩ := Option.bind_eq_some_iff.1 h
  obtain ⟨x43, h43, h⟩ := Option.bind_eq_some_iff.1 h
  obtain ⟨x44, h44, h⟩ := Option.bind_eq_some_iff.1 h
  obtain ⟨x45, h45, h⟩ := Option.bind_eq_some_iff.1 h
  obtain ⟨x46, h46, h⟩ := Option.bind_eq_some_iff.1 h
  obtain ⟨x47, h47, h⟩ := Option.bind_eq_some_iff.1 h
  obtain ⟨x48, h48, h⟩ := Option.bind_eq_some_iff.1 h
  obtain ⟨x49, h49, h⟩ := Option.bind_eq_some_iff.1 h
  obtain ⟨x50, h50, h⟩ := Option.bind_eq_some_iff.1 h
  obtain ⟨x51, h51, h⟩ := Option.bind_eq_some_iff.1 h
  obtain ⟨x52, h52, h⟩ := Option.bind_eq_some_iff.1 h
  obtain ⟨x53, h53, h⟩ := Option.bind_eq_some_iff.1 h
  obtain ⟨x54, h54, h⟩ := Option.bind_eq_some_iff.1 h
  obtain ⟨x55, h55, h⟩ := Option.bind_eq_some_iff.1 h
  obtain ⟨x56, h56, h⟩ := Option.bind_eq_some_iff.1 h
  obtain ⟨x57, h57, h⟩ := Option.bind_eq_some_iff.1 h
  obtain ⟨x58, h58, h⟩ := Option.bind_eq_some_iff.1 h
  obtain ⟨x59, h59, h⟩ := Option.bind_eq_some_iff.1 h
  obtain ⟨x60, h60, h⟩ := Option.bind_eq_some_iff.1 h
  obtain ⟨x61, h61, h⟩ := Option.bind_eq_some_iff.1 h
  obtain ⟨x62, h62, h⟩ := Option.bind_eq_some_iff.1 h
  obtain ⟨x63, h63, h⟩ := Option.bind_eq_some_iff.1 h
  obtain ⟨x64, h64, h⟩ := Option.bind_eq_some_iff.1 h
  obtain ⟨x65, h65, h⟩ := Option.bind_eq_some_iff.1 h
  obtain ⟨x66, h66, h⟩ := Option.bind_eq_some_iff.1 h
  obtain ⟨x67, h67, h⟩ := Option.bind_eq_some_iff.1 h
  obtain ⟨x68, h68, h⟩ := Option.bind_eq_some_iff.1 h
  obtain ⟨x69, h69, h⟩ := Option.bind_eq_some_iff.1 h
  obtain ⟨x70, h70, h⟩ := Option.bind_eq_some_iff.1 h
  obtain ⟨x71, h71, h⟩ := Option.bind_eq_some_iff.1 h
  obtain ⟨x72, h72, h⟩ := Option.bind_eq_some_iff.1 h
  obtain ⟨x73, h73, h⟩ := Option.bind_eq_some_iff.1 h
  obtain ⟨x74, h74, h⟩ := Option.bind_eq_some_iff.1 h
  obtain ⟨x75, h75, h⟩ := Option.bind_eq_some_iff.1 h
  obtain ⟨x76, h76, h⟩ := Option.bind_eq_some_iff.1 h
  obtain ⟨x77, h77, h⟩ := Option.bind_eq_some_iff.1 h
  obtain ⟨x78, h78, h⟩ := Option.bind_eq_some_iff.1 h
  obtain ⟨x79, h79, h⟩ := Option.bind_eq_some_iff.1 h
  obtain ⟨x80, h80, h⟩ := Option.bind_eq_some_iff.1 h
  obtain ⟨x81, h81, h⟩ := Option.bind_eq_some_iff.1 h
  cases h
  exact ⟨h0, h1, h2, h3, h4, h5, h6, h7, h8, h9, h10, h11, h12, h13, h14, h15, h16, h17, h18, h19,
    h20, h21, h22, h23, h24, h25, h26, h27, h28, h29, h30, h31, h32, h33, h34, h35, h36, h37,
    h38, h39, h40, h41, h42, h43, h44, h45, h46, h47, h48, h49, h50, h51, h52, h53, h54, h55,
    h56, h57, h58, h59, h60, h61, h62, h63, h64, h65, h66, h67, h68, h69, h70, h71, h72, h73,
    h74, h75, h76, h77, h78, h79, h80, h81, rfl⟩

theorem of_reads {c : CfgVals} {r : RunCfg} (h : Reads c r) : RunCfg.ofVals c = some r := by
  obtain ⟨h0, h1, h2, h3, h4, h5, h6, h7, h8, h9, h10, h11, h12, h13, h14, h15, h16, h17, h18, h19,
    h20, h21, h22, h23, h24, h25, h26, h27, h28, h29, h30, h31, h32, h33, h34, h35, h36, h37,
    h38, h39, h40, h41, h42, h43, h44, h45, h46, h47, h48, h49, h50, h51, h52, h53, h54, h55,
    h56, h57, h58, h59, h60, h61, h62, h63, h64, h65, h66, h67, h68, h69, h70, h71, h72, h73,
    h74, h75, h76, h77, h78, h79, h80, h81, hs⟩ := h
  unfold RunCfg.ofVals
  rw [h0, h1, h2, h3, h4, h5, h6, h7, h8, h9, h10, h11, h12, h13, h14, h15, h16, h17, h18, h19,
    h20, h21, h22, h23, h24, h25, h26, h27, h28, h29, h30, h31, h32, h33, h34, h35, h36, h37,
    h38, h39, h40, h41, h42, h43, h44, h45, h46, h47, h48, h49, h50, h51, h52, h53, h54, h55,
    h56, h57, h58, h59, h60, h61, h62, h63, h64, h65, h66, h67, h68, h69, h70, h71, h72, h73,
    h74, h75, h76, h77, h78, h79, h80, h81]
  simp only [bind, Option.bind, pure]
  rw [← hs]

theorem ofVals_iff (c : CfgVals) (r : RunCfg) : RunCfg.ofVals c = some r ↔ Reads c r :=
  ⟨reads_of, of_reads⟩

/-- The attributes read by a run, without the seed. -/
def runFields : List String := [
    "mode", "strat_after_age", "solar_wind_ice", "ballistic_hop_moores", "ejecta_basins",
    "impact_ice_basins", "impact_ice_comets", "use_volc_dep_effcy", "ballistic_sed",
    "impact_gardening_costello", "is_comet", "solar_wind_mode", "volc_mode", "faint_young_sun",
    "neukum_pf_new", "mixing_ratio_petro", "basin_ejecta_temp_warm", "coldtrap_names",
    "timestart", "timeend", "timestep", "ballistic_hop_effcy", "volc_dep_effcy",
    "coldtrap_area_H2O", "coldtrap_area_CO2", "ice_density", "simple2complex",
    "complex2peakring", "rad_moon", "grav_moon", "sa_moon", "impact_angle", "target_density",
    "impactor_density", "ej_thickness_exp", "ej_threshold", "basin_ej_threshold",
    "thickness_min", "ice_erosion_rate", "neukum_pf_a_2001", "neukum_pf_a_1983",
    "impact_regimes", "mm_mass_rate", "ctype_frac", "ctype_hydrated", "hydrated_wt_pct",
    "impact_mass_retained", "brown_c0", "brown_d0", "earth_moon_ratio", "impact_speed_mean",
    "impact_speed_sd", "escape_vel", "comet_ast_frac", "comet_density", "comet_hydrated_wt_pct",
    "comet_mass_retained", "comet_speed_min", "comet_speed_max", "jfc_speed_mean",
    "jfc_speed_sd", "jfc_frac", "lpc_speed_mean", "lpc_speed_sd", "lpc_frac", "volc_early",
    "volc_late", "volc_early_pct", "volc_late_pct", "volc_total_vol", "volc_ice_ppm",
    "volc_magma_density", "ballistic_sed_frac_lost", "mixing_ratio_a", "mixing_ratio_b",
    "polar_ejecta_temp_init", "basin_ejecta_temp_init_warm", "basin_ejecta_temp_init_cold",
    "overturn_depth_present", "overturn_ancient_slope", "overturn_ancient_t0"]

theorem ofVals_congr {c c' : CfgVals} (hs : c' "seed" = c "seed")
    (h : ∀ f ∈ runFields, c' f = c f) : RunCfg.ofVals c' = RunCfg.ofVals c := by
  simp only [runFields, List.forall_mem_cons] at h
  obtain ⟨h0, h1, h2, h3, h4, h5, h6, h7, h8, h9, h10, h11, h12, h13, h14, h15, h16, h17, h18, h19,
    h20, h21, h22, h23, h24, h25, h26, h27, h28, h29, h30, h31, h32, h33, h34, h35, h36, h37,
    h38, h39, h40, h41, h42, h43, h44, h45, h46, h47, h48, h49, h50, h51, h52, h53, h54, h55,
    h56, h57, h58, h59, h60, h61, h62, h63, h64, h65, h66, h67, h68, h69, h70, h71, h72, h73,
    h74, h75, h76, h77, h78, h79, h80, -⟩ := h
  unfold RunCfg.ofVals
  rw [hs, h0, h1, h2, h3, h4, h5, h6, h7, h8, h9, h10, h11, h12, h13, h14, h15, h16, h17, h18, h19,
    h20, h21, h22, h23, h24, h25, h26, h27, h28, h29, h30, h31, h32, h33, h34, h35, h36, h37,
    h38, h39, h40, h41, h42, h43, h44, h45, h46, h47, h48, h49, h50, h51, h52, h53, h54, h55,
    h56, h57, h58, h59, h60, h61, h62, h63, h64, h65, h66, h67, h68, h69, h70, h71, h72, h73,
    h74, h75, h76, h77, h78, h79, h80]

/-- Changing the seed changes only the seed of the run. -/
theorem reads_seed {c c' : CfgVals} {r : RunCfg} {n : Int} (hr : Reads c r)
    (hs : c' "seed" = .int n) (h : ∀ f ∈ runFields, c' f = c f) :
    Reads c' { r with seed := n } := by
  simp only [runFields, List.forall_mem_cons] at h
  obtain ⟨h0, h1, h2, h3, h4, h5, h6, h7, h8, h9, h10, h11, h12, h13, h14, h15, h16, h17, h18, h19,
    h20, h21, h22, h23, h24, h25, h26, h27, h28, h29, h30, h31, h32, h33, h34, h35, h36, h37,
    h38, h39, h40, h41, h42, h43, h44, h45, h46, h47, h48, h49, h50, h51, h52, h53, h54, h55,
    h56, h57, h58, h59, h60, h61, h62, h63, h64, h65, h66, h67, h68, h69, h70, h71, h72, h73,
    h74, h75, h76, h77, h78, h79, h80, -⟩ := h
  constructor
  · rw [hs]; rfl
  · rw [h0]; exact hr.mode
  · rw [h1]; exact hr.strat_after_age
  · rw [h2]; exact hr.solar_wind_ice
  · rw [h3]; exact hr.ballistic_hop_moores
  · rw [h4]; exact hr.ejecta_basins
  · rw [h5]; exact hr.impact_ice_basins
  · rw [h6]; exact hr.impact_ice_comets
  · rw [h7]; exact hr.use_volc_dep_effcy
  · rw [h8]; exact hr.ballistic_sed
  · rw [h9]; exact hr.impact_gardening_costello
  · rw [h10]; exact hr.is_comet
  · rw [h11]; exact hr.solar_wind_mode
  · rw [h12]; exact hr.volc_mode
  · rw [h13]; exact hr.faint_young_sun
  · rw [h14]; exact hr.neukum_pf_new
  · rw [h15]; exact hr.mixing_ratio_petro
  · rw [h16]; exact hr.basin_ejecta_temp_warm
  · rw [h17]; exact hr.coldtrap_names
  · rw [h18]; exact hr.timestart
  · rw [h19]; exact hr.timeend
  · rw [h20]; exact hr.timestep
  · rw [h21]; exact hr.ballistic_hop_effcy
  · rw [h22]; exact hr.volc_dep_effcy
  · rw [h23]; exact hr.coldtrap_area_H2O
  · rw [h24]; exact hr.coldtrap_area_CO2
  · rw [h25]; exact hr.ice_density
  · rw [h26]; exact hr.simple2complex
  · rw [h27]; exact hr.complex2peakring
  · rw [h28]; exact hr.rad_moon
  · rw [h29]; exact hr.grav_moon
  · rw [h30]; exact hr.sa_moon
  · rw [h31]; exact hr.impact_angle
  · rw [h32]; exact hr.target_density
  · rw [h33]; exact hr.impactor_density
  · rw [h34]; exact hr.ej_thickness_exp
  · rw [h35]; exact hr.ej_threshold
  · rw [h36]; exact hr.basin_ej_threshold
  · rw [h37]; exact hr.thickness_min
  · rw [h38]; exact hr.ice_erosion_rate
  · rw [h39]; exact hr.neukum_pf_a_2001
  · rw [h40]; exact hr.neukum_pf_a_1983
  · rw [h41]; exact hr.impact_regimes
  · rw [h42]; exact hr.mm_mass_rate
  · rw [h43]; exact hr.ctype_frac
  · rw [h44]; exact hr.ctype_hydrated
  · rw [h45]; exact hr.hydrated_wt_pct
  · rw [h46]; exact hr.impact_mass_retained
  · rw [h47]; exact hr.brown_c0
  · rw [h48]; exact hr.brown_d0
  · rw [h49]; exact hr.earth_moon_ratio
  · rw [h50]; exact hr.impact_speed_mean
  · rw [h51]; exact hr.impact_speed_sd
  · rw [h52]; exact hr.escape_vel
  · rw [h53]; exact hr.comet_ast_frac
  · rw [h54]; exact hr.comet_density
  · rw [h55]; exact hr.comet_hydrated_wt_pct
  · rw [h56]; exact hr.comet_mass_retained
  · rw [h57]; exact hr.comet_speed_min
  · rw [h58]; exact hr.comet_speed_max
  · rw [h59]; exact hr.jfc_speed_mean
  · rw [h60]; exact hr.jfc_speed_sd
  · rw [h61]; exact hr.jfc_frac
  · rw [h62]; exact hr.lpc_speed_mean
  · rw [h63]; exact hr.lpc_speed_sd
  · rw [h64]; exact hr.lpc_frac
  · rw [h65]; exact hr.volc_early
  · rw [h66]; exact hr.volc_late
  · rw [h67]; exact hr.volc_early_pct
  · rw [h68]; exact hr.volc_late_pct
  · rw [h69]; exact hr.volc_total_vol
  · rw [h70]; exact hr.volc_ice_ppm
  · rw [h71]; exact hr.volc_magma_density
  · rw [h72]; exact hr.ballistic_sed_frac_lost
  · rw [h73]; exact hr.mixing_ratio_a
  · rw [h74]; exact hr.mixing_ratio_b
  · rw [h75]; exact hr.polar_ejecta_temp_init
  · rw [h76]; exact hr.basin_ejecta_temp_init_warm
  · rw [h77]; exact hr.basin_ejecta_temp_init_cold
  · rw [h78]; exact hr.overturn_depth_present
  · rw [h79]; exact hr.overturn_ancient_slope
  · rw [h80]; exact hr.overturn_ancient_t0
  · exact hr.species

/-- The four replaced values of the comet configuration. -/
theorem reads_comet {c c' : CfgVals} {r : RunCfg} (hr : Reads c r)
    (hs : c' "seed" = c "seed") (k1 : c' "is_comet" = .bool true)
    (k2 : c' "hydrated_wt_pct" = c "comet_hydrated_wt_pct")
    (k3 : c' "impactor_density" = c "comet_density")
    (k4 : c' "impact_mass_retained" = c "comet_mass_retained")
    (h : ∀ f ∈ runFields, f ∉ ["is_comet", "hydrated_wt_pct", "impactor_density",
      "impact_mass_retained"] → c' f = c f) : Reads c' r.comet := by
  simp only [runFields, List.forall_mem_cons] at h
  obtain ⟨h0, h1, h2, h3, h4, h5, h6, h7, h8, h9, h10, h11, h12, h13, h14, h15, h16, h17, h18, h19,
    h20, h21, h22, h23, h24, h25, h26, h27, h28, h29, h30, h31, h32, h33, h34, h35, h36, h37,
    h38, h39, h40, h41, h42, h43, h44, h45, h46, h47, h48, h49, h50, h51, h52, h53, h54, h55,
    h56, h57, h58, h59, h60, h61, h62, h63, h64, h65, h66, h67, h68, h69, h70, h71, h72, h73,
    h74, h75, h76, h77, h78, h79, h80, -⟩ := h
  constructor
  · rw [hs]; exact hr.seed
  · rw [h0 (by decide)]; exact hr.mode
  · rw [h1 (by decide)]; exact hr.strat_after_age
  · rw [h2 (by decide)]; exact hr.solar_wind_ice
  · rw [h3 (by decide)]; exact hr.ballistic_hop_moores
  · rw [h4 (by decide)]; exact hr.ejecta_basins
  · rw [h5 (by decide)]; exact hr.impact_ice_basins
  · rw [h6 (by decide)]; exact hr.impact_ice_comets
  · rw [h7 (by decide)]; exact hr.use_volc_dep_effcy
  · rw [h8 (by decide)]; exact hr.ballistic_sed
  · rw [h9 (by decide)]; exact hr.impact_gardening_costello
  · rw [k1]; rfl
  · rw [h11 (by decide)]; exact hr.solar_wind_mode
  · rw [h12 (by decide)]; exact hr.volc_mode
  · rw [h13 (by decide)]; exact hr.faint_young_sun
  · rw [h14 (by decide)]; exact hr.neukum_pf_new
  · rw [h15 (by decide)]; exact hr.mixing_ratio_petro
  · rw [h16 (by decide)]; exact hr.basin_ejecta_temp_warm
  · rw [h17 (by decide)]; exact hr.coldtrap_names
  · rw [h18 (by decide)]; exact hr.timestart
  · rw [h19 (by decide)]; exact hr.timeend
  · rw [h20 (by decide)]; exact hr.timestep
  · rw [h21 (by decide)]; exact hr.ballistic_hop_effcy
  · rw [h22 (by decide)]; exact hr.volc_dep_effcy
  · rw [h23 (by decide)]; exact hr.coldtrap_area_H2O
  · rw [h24 (by decide)]; exact hr.coldtrap_area_CO2
  · rw [h25 (by decide)]; exact hr.ice_density
  · rw [h26 (by decide)]; exact hr.simple2complex
  · rw [h27 (by decide)]; exact hr.complex2peakring
  · rw [h28 (by decide)]; exact hr.rad_moon
  · rw [h29 (by decide)]; exact hr.grav_moon
  · rw [h30 (by decide)]; exact hr.sa_moon
  · rw [h31 (by decide)]; exact hr.impact_angle
  · rw [h32 (by decide)]; exact hr.target_density
  · rw [k3]; exact hr.comet_density
  · rw [h34 (by decide)]; exact hr.ej_thickness_exp
  · rw [h35 (by decide)]; exact hr.ej_threshold
  · rw [h36 (by decide)]; exact hr.basin_ej_threshold
  · rw [h37 (by decide)]; exact hr.thickness_min
  · rw [h38 (by decide)]; exact hr.ice_erosion_rate
  · rw [h39 (by decide)]; exact hr.neukum_pf_a_2001
  · rw [h40 (by decide)]; exact hr.neukum_pf_a_1983
  · rw [h41 (by decide)]; exact hr.impact_regimes
  · rw [h42 (by decide)]; exact hr.mm_mass_rate
  · rw [h43 (by decide)]; exact hr.ctype_frac
  · rw [h44 (by decide)]; exact hr.ctype_hydrated
  · rw [k2]; exact hr.comet_hydrated_wt_pct
  · rw [k4]; exact hr.comet_mass_retained
  · rw [h47 (by decide)]; exact hr.brown_c0
  · rw [h48 (by decide)]; exact hr.brown_d0
  · rw [h49 (by decide)]; exact hr.earth_moon_ratio
  · rw [h50 (by decide)]; exact hr.impact_speed_mean
  · rw [h51 (by decide)]; exact hr.impact_speed_sd
  · rw [h52 (by decide)]; exact hr.escape_vel
  · rw [h53 (by decide)]; exact hr.comet_ast_frac
  · rw [h54 (by decide)]; exact hr.comet_density
  · rw [h55 (by decide)]; exact hr.comet_hydrated_wt_pct
  · rw [h56 (by decide)]; exact hr.comet_mass_retained
  · rw [h57 (by decide)]; exact hr.comet_speed_min
  · rw [h58 (by decide)]; exact hr.comet_speed_max
  · rw [h59 (by decide)]; exact hr.jfc_speed_mean
  · rw [h60 (by decide)]; exact hr.jfc_speed_sd
  · rw [h61 (by decide)]; exact hr.jfc_frac
  · rw [h62 (by decide)]; exact hr.lpc_speed_mean
  · rw [h63 (by decide)]; exact hr.lpc_speed_sd
  · rw [h64 (by decide)]; exact hr.lpc_frac
  · rw [h65 (by decide)]; exact hr.volc_early
  · rw [h66 (by decide)]; exact hr.volc_late
  · rw [h67 (by decide)]; exact hr.volc_early_pct
  · rw [h68 (by decide)]; exact hr.volc_late_pct
  · rw [h69 (by decide)]; exact hr.volc_total_vol
  · rw [h70 (by decide)]; exact hr.volc_ice_ppm
  · rw [h71 (by decide)]; exact hr.volc_magma_density
  · rw [h72 (by decide)]; exact hr.ballistic_sed_frac_lost
  · rw [h73 (by decide)]; exact hr.mixing_ratio_a
  · rw [h74 (by decide)]; exact hr.mixing_ratio_b
  · rw [h75 (by decide)]; exact hr.polar_ejecta_temp_init
  · rw [h76 (by decide)]; exact hr.basin_ejecta_temp_init_warm
  · rw [h77 (by decide)]; exact hr.basin_ejecta_temp_init_cold
  · rw [h78 (by decide)]; exact hr.overturn_depth_present
  · rw [h79 (by decide)]; exact hr.overturn_ancient_slope
  · rw [h80 (by decide)]; exact hr.overturn_ancient_t0
  · exact hr.species

end MoonPIES
