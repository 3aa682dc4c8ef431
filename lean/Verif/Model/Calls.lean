import Verif.Model.Basic

/-!
# Calls of the figure functions from the notebooks

How Python binds the arguments of a call to the parameters of a function, the parameters of the public
functions of `/repo/notebooks/figure_scripts/plot_figs.py`, the calls in
`/repo/notebooks/2023_JGR_figs.ipynb` and `2023_JGR_sup_figs.ipynb`, and the names of the module
`/repo/moonpies/moonpies.py` that notebooks and older scripts ask for.
-/

namespace MoonPIES

/-- The parameters of a function without `*args` and `**kwargs`, each with whether it has a default. -/
abbrev Sig := List (String × Bool)

variable {α : Type}

/-- Give a keyword argument to its parameter; `TypeError` for an unknown name or a second value. -/
def setSlot (k : String) (v : α) : List (String × Option α) → Except PyErr (List (String × Option α))
  | [] => .error .typeError
  | (n, o) :: rest =>
    if n = k then
      match o with
      | some _ => .error .typeError
      | none => .ok ((n, some v) :: rest)
    else do
      let rest ← setSlot k v rest
      .ok ((n, o) :: rest)

/-- All keyword arguments. -/
def setSlots : List (String × α) → List (String × Option α) → Except PyErr (List (String × Option α))
  | [], slots => .ok slots
  | (k, v) :: kw, slots => do
    let slots ← setSlot k v slots
    setSlots kw slots

/-- The parameters with the positional arguments. -/
def posSlots : Sig → List α → List (String × Option α)
  | [], _ => []
  | (n, _) :: ps, [] => (n, none) :: posSlots ps []
  | (n, _) :: ps, a :: as => (n, some a) :: posSlots ps as

/-- Python's binding of a call `f(*pos, **kw)`: every parameter with its argument, `none` for the
default.  `TypeError` for too many positional arguments, an unknown or repeated keyword, or a parameter
without argument and default. -/
def bindCall (ps : Sig) (pos : List α) (kw : List (String × α)) :
    Except PyErr (List (String × Option α)) :=
  if ps.length < pos.length then .error .typeError
  else do
    let slots ← setSlots kw (posSlots ps pos)
    if (slots.zip ps).all (fun p => p.1.2.isSome || p.2.2) then .ok slots
    else .error .typeError

/-- `module.name(*pos, **kw)` up to the start of the body: `AttributeError` if the module has no such
name. -/
def callIn (mod : List (String × Sig)) (name : String) (pos : List α) (kw : List (String × α)) :
    Except PyErr (List (String × Option α)) :=
  match mod.lookup name with
  | none => .error .attributeError
  | some ps => bindCall ps pos kw

/-- The parameters of the public functions of `plot_figs.py`. -/
def figSigs : List (String × Sig) := [
  -- plot_figs.py:77
  ("compare_violin", [("fsave", true), ("figdir", true), ("cfg", true), ("datedir", true),
    ("corder", true), ("run_names", true), ("rename", true), ("title", true)]),
  -- plot_figs.py:128
  ("crater_basin_ages", [("fsave", true), ("figdir", true), ("cfg", true)]),
  -- plot_figs.py:200
  ("crater_scaling", [("fsave", true), ("figdir", true), ("cfg", true)]),
  -- plot_figs.py:261
  ("distance_bsed", [("fsave", true), ("figdir", true), ("cfg", true)]),
  -- plot_figs.py:332
  ("ejecta_bsed", [("fsave", true), ("figdir", true), ("cfg", true)]),
  -- plot_figs.py:380
  ("kde_layers", [("fsave", true), ("figdir", true), ("cfg", true), ("datedir", true), ("coldtraps",
    true), ("run_names", true), ("rename", true)]),
  -- plot_figs.py:477
  ("ejecta_distance", [("fsave", true), ("figdir", true), ("cfg", true)]),
  -- plot_figs.py:598
  ("volatilized_fraction_bsed", [("fsave", true), ("figdir", true), ("cfg", true), ("show_avgs",
    true)]),
  -- plot_figs.py:671
  ("random_crater_ages", [("fsave", true), ("figdir", true), ("cfg", true)]),
  -- plot_figs.py:738
  ("strat_cols_bsed", [("fsave", true), ("figdir", true), ("cfg", true), ("datedir", true), ("runs",
    true), ("seed", true), ("min_thick", true), ("corder", true), ("fsave_icepct", true)]),
  -- plot_figs.py:763
  ("strat_cols_seeds", [("fsave", true), ("figdir", true), ("cfg", true), ("datedir", true),
    ("runs", true), ("seeds", true), ("min_thick", true), ("corder", true), ("fsave_icepct",
    true)]),
  -- plot_figs.py:789
  ("surface_boxplot", [("fsave", true), ("figdir", true), ("cfg", true), ("datedir", true),
    ("corder", true), ("sdepths", true), ("verbose", true)]),
  -- plot_figs.py:838
  ("plot_by_module", [("fsave", true), ("figdir", true), ("cfg", true), ("seeds", true)]),
  -- plot_figs.py:980
  ("ballistic_hop", [("fsave", true), ("figdir", true), ("cfg", true)]),
  -- plot_figs.py:1049
  ("ast_comet_vels", [("fsave", true), ("figdir", true), ("cfg", true)]),
  -- plot_figs.py:1111
  ("ice_retention", [("fsave", true), ("figdir", true)]),
  -- plot_figs.py:1149
  ("basin_ice", [("fsave", true), ("figdir", true), ("cfg", true), ("n", true)]),
  -- plot_figs.py:1198
  ("bsed_sensitivity_violin", [("datedir", true)]),
  -- plot_figs.py:1206
  ("comet_sensitivity_violin", [("datedir", true)]),
  -- plot_figs.py:1213
  ("ice_pct_fig7", [("datedir", true)]),
  -- plot_figs.py:1222
  ("ice_pct_fig8", [("datedir", true)]),
  -- plot_figs.py:1235
  ("grid_plots", [("fsave", true), ("figdir", true), ("cfg", true)]),
  -- plot_figs.py:1283
  ("plot_by_module_time", [("fsave", true), ("figdir", true), ("cfg", true), ("seeds", true),
    ("bins", true)])]

/-- The calls in the notebook of the figures (2023_JGR_figs.ipynb): figure, function, keywords. -/
def figureCalls : List (String × String × List String) := [
  ("Figure 2", "crater_basin_ages", ["fsave"]),
  ("Figure 3", "ejecta_distance", ["fsave"]),
  ("Figure 4", "volatilized_fraction_bsed", ["fsave"]),
  ("Figure 6", "plot_by_module", ["fsave", "seeds"]),
  ("Figure 7", "strat_cols_seeds", ["fsave", "datedir"]),
  ("Figure 8", "strat_cols_bsed", ["fsave", "datedir"]),
  ("Figure 9", "compare_violin", ["fsave"]),
  ("Figure 10", "kde_layers", ["fsave"]),
  ("Figure 11", "surface_boxplot", ["fsave"])]

/-- The calls in the notebook of the supplement (2023_JGR_sup_figs.ipynb). -/
def supplementCalls : List (String × String × List String) := [
  ("Figure S1", "ballistic_hop", ["fsave"]),
  ("Figure S2", "ast_comet_vels", ["fsave"]),
  ("Figure S3", "ice_retention", ["fsave"]),
  ("Figure S4", "basin_ice", ["fsave"]),
  ("Figure S5", "bsed_sensitivity_violin", ["fsave"]),
  ("Figure S6", "comet_sensitivity_violin", ["fsave"]),
  ("Figure S7", "ice_pct_fig7", ["fsave"]),
  ("Figure S8", "ice_pct_fig8", ["fsave"]),
  ("Figure S9", "grid_plots", ["fsave"]),
  ("Figure S10", "plot_by_module_time", ["fsave"])]

/-- The names that `moonpies.py` defines or imports. -/
def moonpiesNames : List String := [
  "os", "gc", "lru_cache", "_lru_cache_wrapper", "np", "stats", "pd", "config", "CFG", "main",
  "get_time_array", "init_strat_columns", "update_ice_col", "update_strat_cols", "get_crater_basin_list",
  "random_icy_basins", "read_crater_list", "read_basin_list", "read_volcanic_species",
  "read_solar_luminosity", "read_ballistic_melt_frac", "get_coldtrap_dists", "get_ejecta_thickness",
  "get_ej_thick_simple", "get_ej_thick_complex", "get_ej_thick_basin", "get_ejecta_thickness_time",
  "get_ejecta_thickness_matrix", "ages2time", "get_ice_cols_time", "get_polar_ice", "get_ice_thickness",
  "get_solar_wind_ice", "solar_wind_ice_mass", "get_volcanic_ice", "volcanic_ice_nk", "volcanic_ice_head",
  "get_melt_frac", "kinetic_energy", "ejecta_temp", "ballistic_velocity", "get_bsed_depth",
  "get_mixing_ratio_oberbeck", "remove_ice_overturn", "erode_ice_cannon", "garden_ice_column",
  "overturn_depth_time", "overturn_depth_costello_time", "get_impact_ice", "get_comet_cfg",
  "get_impact_ice_comet", "get_micrometeorite_ice", "get_small_impactor_ice", "get_small_simple_crater_ice",
  "get_large_simple_crater_ice", "get_complex_crater_ice", "get_basin_ice", "get_ice_stochastic",
  "read_ballistic_hop_csv", "get_ballistic_hop_coldtraps", "ice_micrometeorites", "ice_small_impactors",
  "ice_small_craters", "ice_large_craters", "ice_basins", "ice_retention_factor", "impactor_mass2water",
  "_rng", "get_rng", "randomize_crater_ages", "get_random_hydrated_craters", "get_random_hydrated_basins",
  "get_random_impactor_speeds", "asteroid_speed_rv", "comet_speed_rv", "neukum", "get_impactors_brown",
  "get_crater_pop", "num_craters_chronology", "get_small_impactor_pop", "get_crater_sfd", "get_sfd_prob",
  "get_diam_array", "impact_flux_scaling", "impact_flux", "diam2len", "final2transient", "f2t_melosh",
  "f2t_croft", "diam2len_prieur", "diam2len_collins", "diam2len_johnson", "specific_heat_capacity",
  "get_grid_outputs", "get_gc_dist_grid", "get_age_grid", "make_strat_col", "merge_adjacent_strata",
  "format_csv_outputs", "get_all_labels", "format_save_outputs", "save_outputs", "get_grid_arrays",
  "latlon2xy", "xy2latlon", "gc_dist", "probabilistic_round", "round_to_ts", "rtol", "minmax_rtol",
  "diam2vol", "m2km", "km2m", "vprint", "clear_cache", "rv_mixture"]

/-- The names `mp.name` that cli.py, plotting.py, notebooks/figure_scripts/plot_figs.py, aggregate.py and
test/test_moonpies.py use. -/
def usedNames : List String := [
  "asteroid_speed_rv", "ballistic_velocity", "clear_cache", "comet_speed_rv", "diam2len",
  "diam2len_collins", "diam2len_johnson", "erode_ice_cannon", "f2t_croft", "f2t_melosh",
  "final2transient", "garden_ice_column", "get_basin_ice", "get_bsed_depth", "get_coldtrap_dists",
  "get_comet_cfg", "get_complex_crater_ice", "get_crater_basin_list", "get_crater_pop", "get_diam_array",
  "get_ej_thick_basin", "get_ejecta_thickness", "get_ejecta_thickness_matrix", "get_grid_arrays",
  "get_grid_outputs", "get_ice_thickness", "get_impactors_brown", "get_large_simple_crater_ice",
  "get_micrometeorite_ice", "get_mixing_ratio_oberbeck", "get_random_hydrated_craters",
  "get_random_impactor_speeds", "get_rng", "get_small_impactor_ice", "get_small_impactor_pop",
  "get_small_simple_crater_ice", "get_solar_wind_ice", "get_time_array", "get_volcanic_ice",
  "ice_large_craters", "ice_micrometeorites", "ice_retention_factor", "ice_small_craters",
  "ice_small_impactors", "impact_flux", "kinetic_energy", "main", "merge_adjacent_strata", "neukum",
  "overturn_depth_time", "randomize_crater_ages", "read_ballistic_hop_csv", "read_ballistic_melt_frac",
  "read_basin_list", "read_crater_list", "round_to_ts", "volcanic_ice_head"]

/-- `mp.name` (a module has the names it defines). -/
def moonpiesAttr (name : String) : Except PyErr Unit :=
  if name ∈ moonpiesNames then .ok () else .error .attributeError

end MoonPIES
