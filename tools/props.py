import json
P=[]
def p(title, statement, quantifier, why, anchors):
    P.append(dict(id=f"C{len(P)+1:02d}", title=title, statement=statement, quantifier=quantifier, why_tests_cant=why, anchors=anchors))
M="moonpies/moonpies.py:"
C="moonpies/config.py:"
T="moonpies/thermal_eq.py:"
# --- column dynamics
p("Gardening never creates ice and never drives it negative",
  "garden_ice_column(ice, ejecta, t, depth, eff) with non-negative ice and ejecta and 0 <= eff <= 1 returns a column in which every layer lies between 0 and its value before the call. This holds for exact arithmetic and for any monotone rounding of the intermediate results.",
  "every column length, every layer thickness, every t that indexes the column, every depth, every eff in [0,1], every monotone rounding",
  "The loop carries a running depth through arbitrarily many layers; a test fixes one column and one rounding.",
  [M+"garden_ice_column"])
p("Gardening at t touches nothing above t and keeps the column shape",
  "garden_ice_column changes only layers with index <= t, never changes the number of layers, leaves the ejecta untouched, and returns the column unchanged when t = -1 or depth <= 0.",
  "every column, t and depth", "Requires all t and lengths; the t-1 = -1 call on the first timestep is an easy off-by-one.",
  [M+"garden_ice_column", M+"update_ice_col"])
p("Ejecta shields the ice beneath it",
  "In garden_ice_column the ice lost by layer i is at most depth minus the total ejecta in layers i..t (and zero if that ejecta already reaches depth).",
  "every column, t, depth, eff in [0,1], layer i", "The bound couples an unbounded number of layers.",
  [M+"garden_ice_column"])
p("Gardening is exactly the top-down depth budget recursion",
  "Going down from layer t: layer i is reached iff the ejecta of layers i..t plus the ice left in layers above i is less than depth; a reached layer loses min(ice*eff, depth - that sum); an unreached layer loses nothing. garden_ice_column returns the unique column with this property.",
  "every column, t, depth, eff in [0,1]", "A full functional specification cannot be settled by examples.",
  [M+"garden_ice_column"])
p("Gardening to depth d removes at most d metres of ice",
  "garden_ice_column(ice, ejecta, t, depth) removes a total of at most depth metres of ice (what its docstring and test_garden_ice_column promise: ice is only lost down to depth).",
  "every column, t and depth >= 0", "Tests only cover three columns; the failing family needs many thin layers.",
  [M+"garden_ice_column", "test/test_moonpies.py:test_garden_ice_column"])
p("Deeper or more efficient gardening never preserves more ice",
  "For a fixed column and t, increasing depth, or increasing eff within [0,1], leaves every layer with no more ice than before.",
  "every column, t, pairs of depths, pairs of efficiencies", "A relational (two-run) property over an unbounded loop.",
  [M+"garden_ice_column"])
p("Cannon erosion removes exactly the budget, top down",
  "erode_ice_cannon(ice, ej, t, erosion_depth, ej_shield): if the latest layer of 0..t with ejecta > ej_shield is not t itself, then the total ice removed is exactly min(erosion_depth, total ice in layers 0..t); layers above t are unchanged; ice is taken from the youngest layers first (a layer loses ice only if all younger layers up to t are empty afterwards).",
  "every non-negative column, t, erosion depth >= 0, shield", "Exact accounting across arbitrarily many layers.",
  [M+"erode_ice_cannon"])
p("An ejecta layer thicker than the shield protects all ice below it from Cannon erosion",
  "erode_ice_cannon never removes ice from a layer at or below (older than or the same age as) the most recent layer in 0..t with ejecta > ej_shield.",
  "every column, t, erosion depth, shield", "Only some combinations of layer positions expose the comparison of t instead of layer.",
  [M+"erode_ice_cannon"])
p("A whole run only ever removes delivered ice",
  "After update_strat_cols over any number of timesteps and cold traps (either gardening model), every layer of every cold trap holds between 0 and the ice delivered in that layer, and the number of layers, the ejecta columns and the ejecta sources are what they were at the start; no exception is raised for well-shaped inputs.",
  "every number of timesteps and cold traps, every delivered ice, ejecta, overturn and sedimentation schedule with fractions in [0,1], every monotone rounding",
  "An invariant over the whole time loop; tests run one configuration.",
  [M+"update_strat_cols", M+"update_ice_col", M+"remove_ice_overturn"])
p("The stratigraphy at time t does not depend on later events",
  "After processing timesteps 0..t, layers 0..t of a cold trap are determined by the ice, ejecta, overturn and sedimentation of timesteps 0..t only: two inputs that agree up to t give the same layers 0..t, and layers above t are still exactly as delivered.",
  "every pair of inputs agreeing up to t, every t", "Two-run property over all histories.",
  [M+"update_strat_cols", M+"update_ice_col"])
p("Cold traps do not influence each other",
  "With distinct cold trap names, the column update_strat_cols returns for one cold trap equals the column obtained by simulating that cold trap alone with its own ice, ejecta and sedimentation; the order of the other cold traps is irrelevant.",
  "every set of cold traps and every schedule", "Requires all interleavings of the nested loops.",
  [M+"update_strat_cols"])
p("Ice in a layer is never regained",
  "During update_strat_cols the ice in every layer is non-increasing from one timestep to the next, and once a layer is empty it stays empty.",
  "every run, every pair of timesteps t1 <= t2", "Property of the whole history, not of a final state.",
  [M+"update_strat_cols"])
p("Ballistic sedimentation switches off cleanly",
  "With zero ballistic-sedimentation depth (what get_bsed_depth returns when cfg.ballistic_sed is false) the run is the same as one with impact gardening only, whatever the fraction array holds; and sedimentation in the first timestep never changes any layer.",
  "every run", "Needs all columns and all fractions.",
  [M+"update_ice_col", M+"get_bsed_depth"])
# --- ages2time
p("Binning craters into timesteps conserves the total",
  "ages2time with the sum aggregate: the sum of the output over all times equals the sum of the values whose age lies in the tolerance-widened range of the time array; values outside that range contribute nothing.",
  "every non-empty time array, every list of ages and values", "Conservation over arbitrary collisions of ages.",
  [M+"ages2time", M+"minmax_rtol", M+"rtol"])
p("Every crater lands on the nearest model time, ties to the earlier index",
  "ages2time places an in-range value at an index whose time is at minimal distance from its age, and at the first such index when several are equally near; consequently an age that equals a model time is placed at that time.",
  "every time array and age", "Quantifies over all ages including ties.",
  [M+"ages2time"])
p("Binning does not depend on the order of the craters",
  "Permuting the (age, value) pairs given to ages2time does not change the summed output; with the maximum aggregate each output entry is the maximum of 0 and the values placed there.",
  "every permutation, every input", "All permutations of unbounded lists.",
  [M+"ages2time", M+"get_bsed_depth"])
p("Ejecta source labels name exactly the contributing craters",
  "The source string returned by get_ejecta_thickness_time for (time, cold trap) is the comma-separated list, in crater-table order, of exactly those craters placed at that time whose thickness at that trap exceeds cfg.thickness_min, for crater names that do not end in a comma.",
  "every crater table, thickness matrix and time array", "All subsets and collisions of craters.",
  [M+"get_ejecta_thickness_time", M+"ages2time"])
p("Ejecta layers thinner than cfg.thickness_min are set to zero",
  "get_ejecta_thickness_time returns no entry strictly between 0 and cfg.thickness_min (its docstring: 'Ejecta layers smaller than cfg.thickness_min are set to 0').",
  "every crater table", "Documented guarantee never exercised by tests.",
  [M+"get_ejecta_thickness_time"])
# --- time array
p("The time array is a uniform grid from timestart to timeend",
  "get_time_array returns int((timestart-timeend)/timestep) strictly decreasing times starting at timestart, equally spaced by timestep and stopping one timestep before timeend is reached.",
  "every timestart > timeend >= 0 and timestep dividing the span", "Only the default configuration is tested.",
  [M+"get_time_array"])
# --- strat output
p("Merging adjacent strata conserves ice, ejecta and order",
  "merge_adjacent_strata keeps total ice and total ejecta, produces layers no two adjacent of which share a label, keeps the sequence of labels (consecutive repeats collapsed), gives each layer the time of its last row, and merging again changes nothing.",
  "every table of labelled rows", "Unbounded run lengths and label patterns.",
  [M+"merge_adjacent_strata"])
p("The stratigraphy table accounts for exactly the labelled ice and ejecta",
  "make_strat_col's total ice and ejecta equal the sums over the timesteps that are not older than the cold trap (within cfg.rtol) and that have ice or ejecta thicker than cfg.thickness_min; no other timestep contributes and none is counted twice.",
  "every column, age, threshold", "All splits of the column by label, threshold and age.",
  [M+"make_strat_col", M+"merge_adjacent_strata"])
p("Depths in the stratigraphy table are cumulative thickness from the surface",
  "In make_strat_col's table the depth of the top layer is its own thickness, each deeper layer's depth exceeds that of the layer above by exactly its own thickness, the depths never decrease downwards and the bottom depth is the total thickness.",
  "every column", "All layer counts.",
  [M+"make_strat_col"])
p("Ice percentage is a percentage and is defined exactly for layers with thickness",
  "icepct lies in [0, 100] for each layer with positive thickness, and is undefined exactly for zero-thickness rows such as the 'Formation age' row; a pure ice layer is 100, a pure ejecta layer is 0.",
  "every column with non-negative ice and ejecta", "All values including rounding.",
  [M+"make_strat_col"])
p("Stratigraphy layers are in strictly decreasing time order under a Formation age row",
  "With strat_after_age, make_strat_col returns a table whose first row is the zero-thickness 'Formation age' row at the first model time not older than the trap, followed by layers whose times strictly decrease; it fails exactly when no model time is within the trap's age.",
  "every strictly decreasing time array, every column, every age", "All ages relative to the time grid, including none in range.",
  [M+"make_strat_col"])
p("The per-timestep source label lists each source once",
  "Each entry of get_all_labels contains exactly the distinct non-empty source names of that timestep over all cold traps, comma separated with no empty items, and is the same on every run.",
  "every label array, every set iteration order", "Python set order depends on the hash seed of the process; a test sees one order.",
  [M+"get_all_labels"])
# --- rounding / rng
p("Probabilistic rounding rounds to a neighbour and is unbiased",
  "probabilistic_round(x) is floor(x) or ceil(x) for every draw, equals x when x is an integer, and its expectation over a uniform draw is exactly x.",
  "every real x, every draw in [0,1)", "Unbiasedness is an integral over all draws.",
  [M+"probabilistic_round"])
p("Rounding ages to timesteps goes to the nearest multiple",
  "round_to_ts(v, ts) is an integer multiple of ts within ts/2 of v, is idempotent, fixes exact multiples and is monotone.",
  "every v, every ts > 0", "All reals, including ties.",
  [M+"round_to_ts"])
p("Randomized ages stay within their error bars and keep every crater",
  "randomize_crater_ages returns the same craters (each exactly once, with all other fields unchanged), sorted from oldest to youngest, with each age within [age - age_low - timestep/2, age + age_upp + timestep/2] and a multiple of timestep.",
  "every crater table and every random draw", "All random outcomes.",
  [M+"randomize_crater_ages", M+"get_crater_basin_list"])
p("A basin impactor is never both asteroid and comet",
  "get_random_hydrated_basins returns disjoint sets of hydrated C-type and cometary basins (docstring: mutually exclusive).",
  "every draw, every configuration with fractions in [0,1]", "All draws and all parameter values.",
  [M+"get_random_hydrated_basins", M+"random_icy_basins"])
p("Impactor speeds respect the configured physical limits",
  "Asteroid speeds drawn by get_random_impactor_speeds are at least cfg.escape_vel, and comet speeds lie in [cfg.comet_speed_min, cfg.comet_speed_max].",
  "every draw, every configuration", "All draws from a continuous distribution.",
  [M+"asteroid_speed_rv", M+"comet_speed_rv", M+"get_random_impactor_speeds"])
p("Mixture distributions are genuine mixtures",
  "rv_mixture normalizes its weights to sum to 1, its cdf is a convex combination of the submodel cdfs (so monotone and within [0,1]), sf + cdf = 1, and each sample it draws is a sample of one of the submodels; a wrong number of weights is rejected.",
  "every list of submodels and weights", "All weights and distributions.",
  [M+"rv_mixture"])
p("Splitting impacts between asteroids and comets conserves the impact rate",
  "With comets enabled, the expected number of cometary plus asteroid impactors equals the number without comets, and the expected cometary share is cfg.comet_ast_frac, in every size regime.",
  "every time, every regime, every comet fraction in [0,1]", "All parameters, an expectation.",
  [M+"get_impactors_brown", M+"get_crater_pop", M+"get_random_hydrated_craters", M+"get_ice_stochastic"])
p("An impact never retains more ice than the impactor carried",
  "ice_retention_factor returns values in [0, 1] for every speed, in both modes.",
  "every speed > 0, both modes, asteroid and comet", "Continuum of speeds.",
  [M+"ice_retention_factor"])
# --- physics
p("Great-circle distance is a metric on the sphere",
  "gc_dist is symmetric, lies in [0, pi*rp], is zero for identical points, is unchanged by adding 360 degrees to a longitude or rotating both longitudes, equals the radius times the angle between the two directions, and satisfies the triangle inequality.",
  "every latitude and longitude, every radius > 0", "All real coordinates.",
  [M+"gc_dist"])
p("Map projection round-trips on the southern hemisphere",
  "xy2latlon(latlon2xy(lat, lon)) returns (lat, lon) for every latitude in (-90, 0] and longitude in (-180, 180], and latlon2xy(xy2latlon(x, y)) returns (x, y) for every point in the disk of radius rp.",
  "every point", "All real coordinates.",
  [M+"latlon2xy", M+"xy2latlon"])
p("Ejecta thickness is non-negative, thins outward, and missing distances give none",
  "get_ejecta_thickness is 0 for a missing (NaN) distance, positive for every crater at a finite positive distance, and strictly decreasing with distance for simple and complex craters with a negative exponent, infinite at their centre.",
  "every distance, radius and exponent", "All radii including the regime boundaries.",
  [M+"get_ejecta_thickness", M+"get_ej_thick_simple", M+"get_ej_thick_complex"])
p("Ejecta reaches exactly the traps inside the ejecta blanket",
  "get_coldtrap_dists gives a finite distance iff the crater is not the trap itself and the great-circle distance is strictly between the crater radius and threshold*radius; a negative threshold means no outer limit. The gridded outputs use the same rule.",
  "every crater table, threshold and set of traps", "All geometries and thresholds.",
  [M+"get_coldtrap_dists", M+"get_gc_dist_grid", M+"get_age_grid"])
p("Transient craters are smaller than final craters and scale monotonically",
  "final2transient returns 0 < t_diam < diam for each diam > 0 and is strictly increasing in diam across the simple, complex and basin regimes.",
  "every diameter, default transition diameters", "All reals across regime boundaries.",
  [M+"final2transient", M+"f2t_melosh", M+"f2t_croft"])
p("Crater-to-impactor scaling inverts the forward scaling law",
  "diam2len_collins and diam2len_johnson return the positive impactor length whose forward-scaled transient diameter is the input, are strictly increasing in crater diameter and strictly decreasing in speed.",
  "every positive diameter, speed, density, gravity, angle in (0,180)", "All positive reals.",
  [M+"diam2len_collins", M+"diam2len_johnson"])
p("Prieur impactor lengths stay in the tabulated range and are monotone",
  "diam2len_prieur returns lengths within [t_diam[0]/100, t_diam[-1]], non-decreasing in the transient diameter, and exact at tabulated diameters; its tabulated forward law is strictly increasing so interpolation is well defined.",
  "every ascending list of transient diameters and every positive speed, density and gravity", "All tables and queries.",
  [M+"diam2len_prieur"])
p("The size-frequency distribution is a probability distribution over the regime",
  "get_crater_sfd returns diameters from dmin to dmax inclusive, equally spaced and increasing, with positive probabilities that sum to 1 and decrease with diameter for a negative slope.",
  "every 0 < dmin < dmax, step, slope", "All sizes.",
  [M+"get_crater_sfd", M+"get_diam_array", M+"get_sfd_prob"])
p("The past impact flux is never below today's",
  "impact_flux_scaling is 1 at the present, strictly increasing with age, hence at least 1 in the past and positive; continuous-delivery ice (micrometeorites, small impactors, small craters) is therefore non-increasing along the run.",
  "every time >= 0", "Continuum of times.",
  [M+"impact_flux", M+"impact_flux_scaling", M+"ice_micrometeorites", M+"ice_small_impactors"])
p("Ice thickness is an exact mass balance",
  "get_ice_thickness(m) times the cold-trap area times the ice density equals cfg.ballistic_hop_effcy times m; it is additive in m and non-negative for non-negative mass.",
  "every mass and positive area, density", "All values.",
  [M+"get_ice_thickness"])
p("Each cold trap receives the documented share of polar and volcanic ice",
  "get_ice_cols_time gives trap j at time t: polar mass scaled by that trap's hop efficiency (or the constant one) plus volcanic mass scaled by cfg.volc_dep_effcy (or treated as hopping ice); no ice is counted twice and every entry is non-negative.",
  "all four switch combinations, every time and trap", "All inputs under in-place array updates.",
  [M+"get_ice_cols_time"])
p("Head volcanism delivers the configured ice in the two epochs and nothing else",
  "volcanic_ice_head is zero outside the two half-open epochs, and its total over the run is the early rate times the number of early steps plus the late rate times the number of late steps, no step counted in both when the epochs do not overlap.",
  "every time array and epoch pair", "All time grids including boundary times.",
  [M+"volcanic_ice_head"])
p("Needham-Kring volcanism mode works and conserves the tabulated mass",
  "With volc_mode 'NK', get_volcanic_ice returns the tabulated species mass spread over the time between table entries, total mass conserved.",
  "every configuration with volc_mode NK", "No test selects this mode.",
  [M+"volcanic_ice_nk", M+"read_volcanic_species", M+"get_volcanic_ice"])
p("Solar wind ice follows the configured mode",
  "With solar_wind_ice false the contribution is 0 everywhere; otherwise each step delivers the mode's rate times the timestep, scaled under a faint young sun by a luminosity factor that lies between the smallest and largest tabulated values; an unknown mode is rejected.",
  "every mode string, time and luminosity table", "All strings and times.",
  [M+"get_solar_wind_ice", M+"solar_wind_ice_mass", M+"read_solar_luminosity"])
p("Overturn depth is at least the present depth and increases into the past",
  "overturn_depth_costello_time is the present depth for times up to overturn_ancient_t0, is at least that depth and non-decreasing with age before it, with no jump at t0; the Cannon mode is constant and proportional to the timestep.",
  "every time, every non-negative slope and depth", "Continuum of times.",
  [M+"overturn_depth_time", M+"overturn_depth_costello_time"])
p("The Petro adjustment only reduces large mixing ratios, continuously",
  "get_mixing_ratio_oberbeck with the Petro adjustment never exceeds the unadjusted ratio, agrees with it up to 5, is strictly increasing in distance and keeps missing distances missing.",
  "every distance, a > 0, b > 0", "Continuum of distances.",
  [M+"get_mixing_ratio_oberbeck"])
p("The melt fraction of an impact depends only on its own temperature and mixing ratio",
  "get_melt_frac returns for each (crater, trap) pair a fraction in [0,1] (0 for missing pairs) that is the interpolation of the melt table at that pair's temperature and mixing ratio, whatever other pairs are queried together.",
  "every set of queries within the table range", "Interaction between arbitrary query sets.",
  [M+"get_melt_frac", M+"read_ballistic_melt_frac"])
p("Ballistic sedimentation acts only where ejecta lands",
  "get_bsed_depth gives zero depth at each (time, trap) without ejecta, all zeros when cfg.ballistic_sed is false, non-negative depths and melt fractions between 0 and cfg.ballistic_sed_frac_lost.",
  "every crater table and time array", "All bin collisions.",
  [M+"get_bsed_depth"])
p("Ballistic speed grows with distance and stays below the orbital bound",
  "ballistic_velocity is 0 at distance 0, strictly increasing for distances below half the lunar circumference and satisfies v^2 < g*rp/cos(theta)^2.",
  "every distance in (0, pi*rp), every angle in (0,90)", "Continuum of distances.",
  [M+"ballistic_velocity"])
# --- config/CLI
p("Explicit settings always win over mode and pole defaults",
  "In Cfg(**kwargs) each mode- or pole-dependent option the user passes keeps the user's value, and each one the user omits takes the value MODE_DEFAULTS[mode] / POLE_DEFAULTS[pole] lists for it.",
  "every subset of options, both modes and poles", "Exponentially many option subsets.",
  [C+"Cfg._set_mode_defaults", C+"Cfg._set_pole_defaults", C+"MODE_DEFAULTS", C+"POLE_DEFAULTS"])
p("A constructed Cfg has declared types or construction fails",
  "After Cfg(**kwargs) succeeds each field holds an instance of its declared type; otherwise construction raises; values already of the right type are unchanged.",
  "every keyword dictionary", "All Python values.",
  [C+"Cfg._enforce_dataclass_types"])
p("Seeds are kept when given and otherwise drawn in range",
  "A seed that int() accepts and is non-zero is kept as that integer; otherwise the seed is drawn from 1..99998; the final seed is never 0, so re-reading a saved config keeps the seed.",
  "every seed argument, every draw", "All inputs and draws.",
  [C+"_get_random_seed", C+"Cfg._set_seed_time"])
p("A saved configuration reproduces the run's parameters",
  "config.from_dict(cfg.to_dict()) has the same value as cfg in every field except run_date and run_time, whatever the current date and whether or not the output directory exists.",
  "every constructible cfg, every filesystem state", "All configurations and filesystem states.",
  [C+"from_dict", C+"Cfg.to_dict", C+"Cfg.__post_init__"])
p("Runs with different seeds never share an output directory",
  "For the same out_path, run name and date, two different seeds give different cfg.out_path.",
  "every out_path string, every pair of seeds", "All path strings.",
  [C+"_get_out_path"])
p("The comet configuration differs only in the impactor parameters",
  "get_comet_cfg(cfg) has is_comet true, the comet hydration, density and retention, and agrees with cfg in every other run parameter; cfg itself is not modified.",
  "every cfg", "All configurations.",
  [M+"get_comet_cfg"])
p("The command line seed overrides the file, and resume skips only finished work",
  "moonpies [--cfg f] [--resume] [seed]: the seed given on the command line replaces the file's; with --resume and an existing output directory nothing is run or written; without it the model runs exactly once. A run that was interrupted is not skipped by --resume.",
  "every argument combination, filesystem state and crash point", "Crash points and filesystem states.",
  ["moonpies/cli.py:run", C+"read_custom_cfg", M+"save_outputs"])
p("cfg.write controls all file output",
  "format_save_outputs writes no file when write and write_npy are false; with write it writes exactly the config file, one strat file per cold trap and the two column files, all under the output directory, creating it if needed.",
  "every set of cold traps, every filesystem state", "All cold-trap sets and filesystem states.",
  [M+"format_save_outputs", M+"save_outputs"])
p("Memoization never changes results",
  "For the lru_cache-decorated functions, every sequence of calls and cache clears returns what the undecorated function would return, provided equal keys give equal results; at most maxsize entries are kept.",
  "every call sequence, every maxsize", "All histories, including evictions.",
  [M+"neukum", M+"asteroid_speed_rv", M+"comet_speed_rv", M+"get_crater_sfd", M+"diam2len_prieur", M+"clear_cache"])
p("Disabling basin ejecta removes basins from the run",
  "With cfg.ejecta_basins false, basins contribute no ejecta to any cold trap in main().",
  "every crater and basin table", "Needs tables where a basin is in range.",
  [M+"main"])
# --- thermal
p("The melt fraction model returns a fraction and always stops",
  "melt_frac_teq_1d returns a value in [0,1] after at most max_iter steps for every mixing ratio >= 0 and every random placement, and a cell once melted stays melted.",
  "every mr, temperature, size, placement", "All initial placements and iteration counts.",
  [T+"melt_frac_teq_1d"])
p("Heat conduction obeys the maximum principle",
  "heat1d_finite_diff keeps every temperature between the minimum and maximum of the previous step whenever the initial temperatures are within the 45-510 K range the melt table is built from, for any number of steps.",
  "every temperature array in [45,510] of length >= 2, every number of steps", "Stability of an iteration over real vectors.",
  [T+"heat1d_finite_diff", T+"thermal_conductivity", T+"sphc", T+"thermal_diffusivity"])
p("Parallel and sequential melt tables agree",
  "get_melt_frac_arr returns the same array whether run sequentially or in a pool of any size, for every order in which workers finish.",
  "every list of ratios, temperatures, seeds, every completion order", "All schedules.",
  [T+"get_melt_frac_arr", T+"_parallel_melt_frac"])
p("Cold ejecta melts nothing",
  "If ejecta and target are both below melt_t, melt_frac_teq_1d returns 0; with mixing ratio 0 it returns 1 or 0 according to whether the ejecta is at least at melt_t.",
  "every configuration", "All placements.",
  [T+"melt_frac_teq_1d"])
# --- grid
p("The age grid holds the age of the youngest event covering each point",
  "get_age_grid gives each grid point the smallest age among the craters whose ejecta blanket covers it, and timestart if none does.",
  "every crater table and grid", "All overlaps and orders.",
  [M+"get_age_grid"])
p("Grid arrays are symmetric about the pole",
  "get_grid_arrays returns y from ysize down to -ysize and x from -xsize up to xsize in steps of grdstep when the step divides the size, and gridded outputs work for rectangular grids.",
  "every size and step", "All sizes.",
  [M+"get_grid_arrays", M+"get_gc_dist_grid", M+"get_age_grid"])
# --- plotting / aggregation
p("Cleaning a stratigraphy column for plotting keeps all its ice",
  "clean_up_strat_col merges layers thinner than min_thick into a neighbouring layer: total ice and ejecta are unchanged.",
  "every table and min_thick", "All patterns of thin layers.",
  ["moonpies/plotting.py:clean_up_strat_col"])
p("Ice above a depth is monotone and never exceeds the total",
  "The 'total ice d m' aggregates are non-decreasing in d, between 0 and the total ice, and equal the total ice once d reaches the column depth.",
  "every stratigraphy table and depth", "All layer patterns.",
  ["notebooks/figure_scripts/aggregate.py:agg_coldtrap"])
# --- reproducibility
p("Switching optional ice sources does not disturb the other random draws",
  "For the same generator state, the asteroid non-basin impact ice is identical whether impact_ice_basins is on or off (the code's 'run every time for repro'), and so is the comet ice.",
  "every generator, crater table and configuration", "Two-run property over all generators.",
  [M+"get_impact_ice", M+"get_impact_ice_comet", M+"get_polar_ice"])
p("A complete run yields physically sensible columns",
  "main() with non-negative parameters returns for each cold trap a table whose ice is non-negative, never exceeds what was delivered, and whose depth equals the accumulated thickness.",
  "every configuration, crater table, generator", "Composition of all stages.",
  [M+"main", M+"init_strat_columns", M+"format_csv_outputs"])
p("Whole runs are monotone in supply and loss",
  "With Costello gardening or Cannon erosion, a run that delivers at least as much ice and ejecta in every layer and gardens and sediments no deeper and no more efficiently ends with at least as much ice in every layer of every cold trap.",
  "every pair of runs related pointwise", "A two-run property over all histories.",
  [M+"update_strat_cols", M+"update_ice_col", M+"garden_ice_column"])
p("The shipped configuration and data always complete a run",
  "With the default configuration of either mode and the data files in the repository, main() returns for every seed; at the north pole it never does, because the crater list holds no northern cold trap.",
  "every seed, every sampler, every order of tied ages", "All seeds and all draws.",
  [M+"main", M+"get_crater_basin_list", "moonpies/config.py:Cfg"])
p("The ejecta column of a run holds every impact dated to each time",
  "In a complete run the ejecta thickness of a cold trap at a time is the sum over all craters and basins dated to that time of the thickness each of them leaves at the cold trap.",
  "every configuration, crater table and generator", "Composition of reading, dating, distances, thickness and saving.",
  [M+"main", M+"get_ejecta_thickness_time", M+"ages2time"])
p("Basin ice does not disturb the other draws of a complete run",
  "With the same seed, the ice delivered by non-basin asteroids and by non-basin comets in a complete run is the same whether impact_ice_basins is on or off.",
  "every generator, configuration and data set", "A two-run property over all generators, through the crater table.",
  [M+"random_icy_basins", M+"ice_basins", M+"get_polar_ice"])
p("Every layer label of a stratigraphy table names what lies in the layer",
  "The table is the counted timesteps, each labelled with its ejecta source if the ejecta is thicker than the minimum (or 'Minor source(s)' when the source is unknown) and with 'Ice' otherwise, merged where neighbours have one label.",
  "every history of ice, ejecta and sources", "All interleavings of sources and thin layers.",
  [M+"make_strat_col", M+"merge_adjacent_strata"])
p("Layers of a complete run are named after the impacts that made them",
  "In the stratigraphy table of a complete run, every layer is the formation row or carries the names of exactly the craters and basins dated to its time that leave more than thickness_min of ejecta at the cold trap, 'Minor source(s)' if only their sum does, or 'Ice'.",
  "every configuration, crater table and generator", "Composition of dating, thickness, labels, erosion and merging.",
  [M+"main", M+"get_ejecta_thickness_time", M+"make_strat_col"])
p("A run computes with the options it was given",
  "Arguments that fit their fields are accepted on every machine; every option a run reads has the given value or the documented default for the mode and pole, also after writing and rereading the configuration; the comet configuration differs in four values; a seed on the command line changes only the seed; the default command line completes a run with the shipped data.",
  "every environment, seed and set of fitting arguments", "All machines, clocks, directories and argument sets.",
  ["moonpies/config.py:Cfg", "moonpies/config.py:read_custom_cfg", "moonpies/config.py:from_dict", M+"get_comet_cfg", M+"main"])
p("The aggregated tables hold each layer and each run once",
  "In the aggregated layers table each row's ice, depth and time belong to one layer, and the rows of a cold trap and run directory are the layers of its files, each once, in file order; entry i of each column of the runs table is the total ice, greatest depth and ice above a depth of file i; the tables hold only data of this aggregation.",
  "every set of cold traps, run directories and files", "All numbers of files, layers, failures and earlier aggregations.",
  ["notebooks/figure_scripts/aggregate.py:agg_coldtrap", "notebooks/figure_scripts/aggregate.py:pickles_to_csv", "notebooks/figure_scripts/aggregate.py:aggregate", "notebooks/figure_scripts/aggregate.py:flatten_agg_df"])
p("Renaming runs gives each run its new name",
  "rename_runs keeps the rows of the named runs in order and gives each the new name at the position of its run name, for any lists of run names and new names.",
  "every table and all lists of names", "All overlaps between old and new names.",
  ["notebooks/figure_scripts/aggregate.py:rename_runs"])
p("The default configuration file is neutral",
  "make_default_cfg writes the same file on every machine and at every time, without seed, clock or directories. Reading it back after the user has changed or added any entries gives the configuration that Cfg gives for those entries alone.",
  "every environment that writes the file, every environment that reads it, every set of changes with distinct names",
  "The file is written from one object and read in another environment; a test changes a handful of entries on one machine.",
  ["moonpies/config.py:make_default_cfg", "moonpies/config.py:read_custom_cfg", "moonpies/config.py:from_dict"])
p("A generated melt table is complete, physical and usable",
  "make_melt_frac_dfs gives for each mixing ratio and ejecta temperature the mean and the population standard deviation of the melt fractions over its seeds, labelled by ratio and temperature, whatever the number of CPUs. Means lie in [0, 1] and deviations in [0, 1/2]; ejecta below the melting temperature gives 0 and pure ejecta above it 1, without scatter. The table the script saves has distinct labels spanning ratios 0 to 39 and 110 to 510 K, and a default run completes with it.",
  "all mixing ratios, temperatures, seeds, placements of ejecta, CPU counts and completion orders",
  "The table takes hours to generate; a test covers a few cells and one machine.",
  ["moonpies/thermal_eq.py:make_melt_frac_dfs", "moonpies/thermal_eq.py:get_melt_frac_arr", "moonpies/thermal_eq.py:rand_positions"])
p("A column is drawn with its own layers, hatches and colours",
  "get_strat_col_ranges turns a column whose layers have distinct depths into two rows per layer, at its top and base, whatever the order of the input; each layer carries the hatch of the largest of its sources. Inside each layer plot_strat shows the hatch of that layer and the colour of its own ice percentage; the legend lists each drawn label once, ice first and Other last, and does not change the picture. Each seed and cold trap has an axis of its own.",
  "all columns, orders of rows, crater lists, string hashes, depths and numbers of seeds and cold traps",
  "Pictures are not compared in tests, and the hash of strings differs between processes.",
  ["moonpies/plotting.py:get_strat_col_ranges", "moonpies/plotting.py:plot_strat", "moonpies/plotting.py:strat_legend", "moonpies/plotting.py:get_lith_key"])
p("Nothing in the tables of a run is negative",
  "In every run that returns, neither the ice nor the ejecta of any cold trap is negative at any time or in any layer. The depth of a layer is its own thickness plus that of all layers above it and never decreases downwards. The ice percentage is missing exactly for empty layers and otherwise lies within 0 and 100.",
  "all configurations, crater and basin lists, seeds and random generators",
  "The sign depends on trigonometric corrections for basins near the antipode, which the tests do not reach.",
  ["moonpies/moonpies.py:main", "moonpies/moonpies.py:get_ejecta_thickness", "moonpies/moonpies.py:get_ej_thick_basin", "moonpies/moonpies.py:make_strat_col"])
p("The picture of a run shows its layers",
  "For every trap of a run with strat_after_age, plot_stratigraphy draws the column: it fails exactly if the table has layers but none is min_thick thick; the title gives the first model time after the formation of the trap; at each depth one sees the hatch of the uppermost layer of at least min_thick whose base lies below, so inside every such layer its own hatch; thin layers show the layer below, or nothing at the bottom; without strat_after_age no column can be drawn.",
  "all stratigraphy tables made by make_strat_col from timesteps without negative thickness, in particular all tables of runs; all hash functions, all orders among equal sort keys, all depths",
  "needs the tables of all runs and a rendering backend, and the picture is only compared by eye",
  ["moonpies/plotting.py:112-129", "moonpies/plotting.py:172-309", "moonpies/moonpies.py:make_strat_col"])
p("The colour of a layer tells its share of ice",
  "make_cmap reads hex colours of six or three digits as the usual colours and interpolates linearly between evenly spaced ones, or between those at the given locations, in 256 steps; locations that do not go from 0 to 1 are refused; if the listed colours get darker in each channel, more ice is never drawn lighter; in the default map the colour of a percentage is within one step of the straight line from grey to blue, and layers drawn in equal colours differ by at most 100/256 points of ice.",
  "all lists of at least two colours; all percentages, NaN included",
  "tests of a plot look at a few colours; the claim is about all percentages and all colour lists",
  ["moonpies/plotting.py:311-358", "moonpies/plotting.py:178-180"])
p("Rounded stratigraphy tables are sensible and close to exact ones",
  "Computed with rounded numbers, a stratigraphy table still has depths that never decrease going down, and ice percentages that are missing exactly for layers without thickness, lie between 0 and 100, are 0 for layers without ice and 100 for layers without ejecta. It has the layers, labels and times of the exactly computed table; thicknesses and depths agree up to one rounding error per operation and percentages up to one in the fourth decimal.",
  "all columns of non-negative thicknesses, all roundings that are monotone, fix zero, are idempotent and have a small relative error (shown for binary floats with any number of digits), all sums with a small relative error",
  "Rounding errors depend on every digit of the input; a test sees a few columns and compares with a tolerance.",
  ["moonpies/moonpies.py:make_strat_col", "moonpies/moonpies.py:merge_adjacent_strata"])
p("The ice-by-module figure shows what runs deliver and lose",
  "For inputs on which runs succeed and any nonempty list of seeds, the by-module table is computed without an exception. At every model time its total ice is the mean, over the seeds, of the ice that the run with that seed brings to the pole (asteroids, comets, solar wind and volcanoes, each counted once); the impactor and basin columns together are the mean impact ice, the gardening column is the gardening depth of the runs, and the ballistic sedimentation column is the mean over seeds and cold traps of the depth they remove. The table does not depend on anything drawn outside the seeded generators unless a seed is 0.",
  "for all generators with lawful samplers, physical configurations, data files, lists of seeds and times",
  "Tests would have to recompute ten modules over several seeds and compare them with complete runs; the figure is not covered by tests at all, and double counting of a column that is the same in two tables looks plausible in a plot with a log scale.",
  ["notebooks/figure_scripts/plot_figs.py:_get_ice_ast_comet_seeds", "notebooks/figure_scripts/plot_figs.py:_get_ice_by_module", "notebooks/figure_scripts/plot_figs.py:_get_agg_bsed_depth"])
p("Bars by era show mean, range and maximum of each module",
  "Every model time of the last 4.26 Gyr belongs to exactly one era, the older end included. For each kind of ice and each era with model times there is one bar: its height is the mean over the times of the era, its error bar spans all values there and ends at the largest, the bars of an era stand side by side between its dividers in the order of the legend, and the bar of the total is as high as the bars of its parts together. The shading labelled Max reaches the largest loss of the era.",
  "for all tables of columns, eras and times",
  "Plots are not tested; a wrong bin edge or a mean labelled as a maximum is invisible in the picture.",
  ["notebooks/figure_scripts/plot_figs.py:plot_by_module"])
p("Where a run keeps its files",
  "Without an out_path a run keeps its output files in <cwd>/out/<run date>/<run name>/<seed>/ and its figures in <cwd>/out/<run date>/figures/. With an out_path that does not mention the seed the files go to <out_path>/<seed>, or to the sibling directory <seed> when the last directory of out_path is a number; an out_path that already ends with the seed is used as it is. The seed directory is the decimal seed padded with zeros to five characters. Without a data_path, input files are taken from the data directory of the package unless they exist under the given name.",
  "for all keyword arguments, current directories, dates, run names, seeds, file systems and all *_out and *_in settings of the configuration",
  "Tests build a config in one directory with one date; the claim covers every directory, run name, seed and file system state.",
  ["moonpies/config.py:_get_out_path", "moonpies/config.py:_get_figs_path", "moonpies/config.py:Cfg._make_paths_absolute"])
p("The ejecta figure shows what a run computes",
  "In the figure of ejecta against distance every curve shows, at each distance, the flight speed that reaches this distance on the planet of the crater, the ejecta thickness the run uses there, the kinetic energy per square metre of this layer, and the depth of ballistic sedimentation a run computes there. Along the curves of craters speed grows with distance while thickness and energy fall, and the energy marked for the Ries crater is read from its curve at four crater radii.",
  "for all configurations, crater diameters and distances; the shape of the curves for the shipped figure",
  "The figure script has no tests, and a curve evaluated at the wrong distance looks as smooth as a right one.",
  ["notebooks/figure_scripts/plot_figs.py:ejecta_distance", "moonpies/moonpies.py:kinetic_energy", "moonpies/moonpies.py:ballistic_velocity", "moonpies/moonpies.py:get_mixing_ratio_oberbeck"])
p("A saved figure is named after its version and never overwrites another",
  "A figure saved with a file name goes into the figure directory under that name; unless the path mentions the version already, the version is put between the stem and the extension and nothing else changes. The path of a saved figure always contains the version given. Two versions, or two figures, never write the same file, the extension stays a format that can be written, and making all figures with their defaults writes one distinct file per figure, each labelled with the version.",
  "for all directories, file names, versions and dates",
  "The figure script has no tests, and whether a file is overwritten depends on what its directory happens to be called.",
  ["notebooks/figure_scripts/plot_figs.py:_save_or_show", "notebooks/figure_scripts/plot_figs.py:_generate_all", "moonpies/plotting.py:plot_version"])
p("Without a data directory the latest one with layers is used",
  "When the figures have to guess where their data is, they take a directory that holds the layer table, the latest of these, and they raise an error exactly when there is none.",
  "for all output directories and all orders in which their entries are listed",
  "The order in which a file system lists a directory cannot be controlled by a test.",
  ["notebooks/figure_scripts/plot_figs.py:_get_datedir", "notebooks/figure_scripts/plot_figs.py:_load_aggregated"])
p("A configuration file means the options it spells, however it is laid out",
  "Reading a configuration file gives the configuration of the options it spells, whatever its white space, line breaks, comments, quotes, escapes, number formats and trailing commas; no text spells two sets of options; every set of options has such a file; and the file saved by a run gives its parameters back.",
  "for all sets of options and all texts that spell them",
  "The layouts of a file cannot be enumerated; the tests read one file that the program wrote itself.",
  ["moonpies/config.py:read_custom_cfg", "moonpies/config.py:_dict2str", "moonpies/config.py:Cfg.to_py"])
p("Gridded ejecta: each crater's own ejecta at each point, and the figure sums them",
  "get_grid_outputs returns the age grid and one slice per crater that holds, at each grid point, the thickness of this crater's ejecta at its distance, and 0 inside the crater and off its blanket; grid_plots shows the age and the sum over all craters for the configuration it is given; both work for rectangular grids.",
  "every crater table, grid and configuration",
  "All craters and points; the grids are computed only on demand and never tested.",
  ["moonpies/moonpies.py:get_grid_outputs", "notebooks/figure_scripts/plot_figs.py:grid_plots"])
p("Single precision model times date every event as exact times would",
  "The model times are stored in single precision, in which 4.25 billion years is not a number. With whole timesteps the times are the exact ones rounded once; they stay strictly decreasing; random ages rounded to timesteps are exact multiples of the timestep, at most half a timestep off; every event is binned into the timestep it would have with exact times, and events before the first or after the last time are dropped alike; volcanic epochs cover the same timesteps; and the table of a cold trap is cut at the same layer and differs only in its time column.",
  "for all rounding functions with relative error u, tolerances of at least 4u, and numbers of timesteps with 2 n tolerance < 1; all ages that are whole timesteps",
  "A rounding error moves an event by a whole timestep or loses it; tests use round numbers and one configuration.",
  ["moonpies/moonpies.py:get_time_array", "moonpies/moonpies.py:ages2time", "moonpies/moonpies.py:minmax_rtol", "moonpies/moonpies.py:round_to_ts", "moonpies/moonpies.py:volcanic_ice_head", "moonpies/moonpies.py:make_strat_col", "moonpies/config.py:Cfg.rtol"])
p("Polar ice is the sum of its sources",
  "In each timestep the polar ice, as mass in the cold traps, is the hop efficiency times the mass delivered by asteroids, by comets if they are on and by the solar wind if it is on. A kind of impactor delivers: its micrometeorites; small impactors and small craters at their mean rate, which is the expected number times the mean mass times the wet fraction, water content and retained fraction of the kind; large simple and complex craters drawn one by one, each wet one with the sphere of the length that the scaling law of its regime gives for its diameter and its drawn speed, times density, water content and the fraction kept at that speed; and, if basins are on, each basin marked with the kind, at the time nearest to its age. Expected numbers come from the production polynomial or the power law, the share of the kind and the flux of the time. All draws are in one chain. The ice of a cold trap in a complete run is the polar ice times its own hop efficiency plus the volcanic share.",
  "for all generators that return arrays of the asked length within bounds, all usable configurations and data, all crater tables, nonempty time arrays and generator states",
  "The sum is over random draws; a test of one seed cannot tell a missing or doubled source from another draw.",
  ["moonpies/moonpies.py:get_polar_ice","moonpies/moonpies.py:get_impact_ice","moonpies/moonpies.py:get_impact_ice_comet","moonpies/moonpies.py:get_ice_stochastic","moonpies/moonpies.py:ice_basins","moonpies/moonpies.py:ice_micrometeorites","moonpies/moonpies.py:ice_small_impactors","moonpies/moonpies.py:ice_small_craters","moonpies/moonpies.py:ice_large_craters","moonpies/moonpies.py:get_ice_cols_time"])
p("Module contributions over time: means of equal slices and running totals",
  "In the figure of module contributions over time every timestep is in exactly one of the slices of equal length; each point on the left is the mean of a module over the timesteps of its slice, and the points with their numbers of timesteps account for all the ice; with the default configuration each slice holds five timesteps. The number of slices is the one asked for, and the shading labelled as the maximum of a loss is its maximum over a slice. Each point on the right is the total delivered up to and including its time, ending with the total of the module.",
  "for all module tables with strictly decreasing times, for all usable configurations and generators in the default case",
  "A timestep that falls between two slices, or into two, only shows for particular times.",
  ["notebooks/figure_scripts/plot_figs.py:plot_by_module_time"])
p("Boxes, arrows, exceedances and violins show the quantiles they are labelled with",
  "The box of a cold trap spans the quartiles of its ice over the runs with a line at the median, and the points beyond the whiskers are exactly the values outside them; arrows point at the percentiles they are labelled with; the fraction printed for a cold trap is the share of its runs above the threshold, which is at 5% of the depth; lines in a violin are the quartiles of the runs.",
  "for all tables of runs, cold traps and depths",
  "Quantiles of random runs cannot be compared with a fixed picture; labels are never tested.",
  ["notebooks/figure_scripts/plot_figs.py:surface_boxplot", "notebooks/figure_scripts/plot_figs.py:compare_violin"])
p("A crater table is reproducible from its seed, however the generator is given",
  "get_crater_basin_list takes a generator, a seed or nothing as rng. For each of these the table exists; every basin is marked as its own draw says, and every age is the multiple of the timestep closest to its own draw, which lies within the error bars. With a generator the table and the generator left behind are those of a run. The same configuration and argument always give the same table, and a seed gives the table of a generator with this seed.",
  "for all generators, usable configurations and data, arguments rng and states of the operating system's randomness",
  "Whether a result depends on fresh randomness cannot be seen from one call; the tests pass a generator or fix nothing.",
  ["moonpies/moonpies.py:get_crater_basin_list", "moonpies/moonpies.py:random_icy_basins", "moonpies/moonpies.py:randomize_crater_ages", "moonpies/moonpies.py:_rng", "moonpies/moonpies.py:get_rng"])
p("The figure of basin ice shows smoothed means and percentiles of independent runs",
  "For asteroids and for comets the figure of basin ice draws, at each time, the mean and the 99.7th percentile over the runs of the ice delivered by the basins this kind made, as moving averages over three timesteps, each the mean of the values under its window; each run has a seed of its own, which fixes it; the times are those of the configuration.",
  "for all generators, usable configurations and data, and numbers of runs",
  "The curves are statistics of random runs; the ends of a window and the use of a seed show only in numbers nobody compares.",
  ["notebooks/figure_scripts/plot_figs.py:basin_ice", "moonpies/moonpies.py:get_basin_ice"])
p("The figure of volatilized fractions shows the melt table at its labels",
  "The images of the figure show every value of the tables of melt fractions, in percent; the colour at a labelled temperature and ejecta fraction is that of the value tabulated nearest to them; the bars lie at the configured temperatures and reach from the least to the greatest ejecta fraction that craters, or basins, mix into the ice of the cold traps.",
  "for all melt fraction tables with the even grid of the script, points of the images, configurations and crater lists",
  "Whether an image is half a cell off cannot be seen by looking at it, and a test of the script only checks that it draws something.",
  ["notebooks/figure_scripts/plot_figs.py:volatilized_fraction_bsed", "moonpies/moonpies.py:read_ballistic_melt_frac"])
p("The figure of random crater ages shows the age distribution used by the model",
  "The upper panel counts, for each crater, the ages drawn for it in 100 runs of the model, by age in units of 10 million years; the lower panel counts 100000 draws from the same distribution, which stays within the error bars of the crater; no age is left out; the figure is the same each time.",
  "for all generators, configurations and lists of craters with distinct names and error bars",
  "The panels are random and one draw hardly moves the centre of a histogram, so a distribution that is centred on a draw instead of the listed age looks right.",
  ["notebooks/figure_scripts/plot_figs.py:random_crater_ages", "moonpies/moonpies.py:randomize_crater_ages"])
p("The figure of hop efficiencies shows the efficiencies used, and the best line",
  "Each point of the figure lies at 100 times the ballistic hop efficiency a run uses for its cold trap; the traps are those of the default configuration, at the latitudes of their craters; the dashed line is the line with the least squared distance to the points of Moores et al.; the other line joins Cabeus B and Faustini; a trap missing from the table raises KeyError; all points of the shipped table are inside the axes.",
  "All tables of hop efficiencies; all lines, for the best fit.",
  "A test would look at one table and compare the line with another fit; the optimality claim quantifies over all lines and all tables.",
  ["notebooks/figure_scripts/plot_figs.py:980-1046", "moonpies/moonpies.py:1760-1781"])
p("The figure of ice retention shows the law used, which fits the data shown",
  "The curves of the figure show, at 7000 speeds from 0 to 70 km/s, the fraction of ice a run retains at that speed, for each mode and kind of impactor; the law of this work fits the data of Ong et al.; above 45 km/s less than a quarter of a percent is retained in either mode; the curves for asteroids and comets are one from 10 km/s on, and fall.",
  "All speeds above the stated ones, both modes and both kinds of impactor.",
  "The curves are over a continuum of speeds; a plot shows finitely many, and on a scale where a factor of 100 below a percent is not seen.",
  ["notebooks/figure_scripts/plot_figs.py:1111-1149", "moonpies/moonpies.py:1876-1894"])
p("Distributions of impact speeds are distributions, and those that runs draw from",
  "The density, the distribution function and the survival function of the asteroid and comet speeds belong to one probability distribution: the density is not negative and integrates to one, the distribution function is its integral and the survival function the rest; asteroids are never slower than the escape speed; the speeds a run draws have this density if the generator draws standard truncated normal numbers and chooses independently with the given probabilities; the figure shows the whole distribution.",
  "All means, deviations, bounds and fractions; all probability spaces and generators that draw as assumed; all measurable sets of speeds.",
  "That a density integrates to one, or that draws have a law, is a statement on a continuum and on all sets of values; samples agree with it only approximately.",
  ["moonpies/moonpies.py:2027-2051", "moonpies/moonpies.py:2864-2913", "notebooks/figure_scripts/plot_figs.py:1049-1108"])
p("Erosion agrees with the reference implementation of Cannon et al.",
  "The erosion of ice used in cannon mode gives the same column as the code of Cannon et al. (2020) that the test suite translates, and is shut off at the same timesteps by ejecta.",
  "All ice and ejecta columns, timesteps, erosion depths and shielding thicknesses.",
  "The tests compare nine columns, all at a late timestep and with enough ice; the two differ at the first timestep and when there is less ice than is eroded.",
  ["test/test_moonpies.py:274-385", "moonpies/moonpies.py:1384-1437"])
p("Ice delivered in cannon mode agrees with the reference formulas",
  "In cannon mode the ice of micrometeorites, small impactors, small simple craters, large craters and volcanoes, the retained fraction of impactors and the thickness of a mass of ice are those of the formulas of Cannon et al. (2020) that the test suite writes out.",
  "All times, masses, diameters, speeds and seeds.",
  "The tests compare at a few times and diameters and with a tolerance; agreement is a claim on all of them and on exact values.",
  ["test/test_moonpies.py:14-273", "moonpies/moonpies.py:229-330", "moonpies/moonpies.py:1521-1700"])
p("A run in cannon mode is a pile eaten from the top",
  "Without Costello gardening and ballistic sedimentation, the ice of each cold trap at the end of a run is what results from putting the delivered layers on a pile and taking the erosion depth off the top after each, except when more than 0.4 m of ejecta landed; the total is what was delivered less what was taken while there was ice; when each layer brings at least that depth, it ends with the delivered thickness less the depth, or all of it if shielded.",
  "All generators, configurations and data for which a run returns; for the defaults all seeds, and then a run returns.",
  "The test of a cannon run fixes the delivered ice and the ejecta by mocks and compares four cases; the claim is on all deliveries and all timesteps of a whole run.",
  ["test/test_moonpies.py:494-575", "moonpies/moonpies.py:24-77", "moonpies/moonpies.py:186-226"])
p("The figure of crater scaling shows the laws, and impactors grow with craters",
  "The figure has a line for each regime of simple and complex craters from its smallest to its largest crater, and a mark for each basin, at the impactor lengths the code computes; each line is the law between its ends; larger craters have larger impactors across regimes and no impactor belongs to two regimes; the axes have the units they say.",
  "All configurations with positive densities for the law of large simple craters; all diameters of each regime; all seeds; all basin lists.",
  "The figure evaluates each law at two diameters; whether the line is the law, and whether neighbouring regimes overlap, are claims on all diameters in between.",
  ["notebooks/figure_scripts/plot_figs.py:200-258", "moonpies/moonpies.py:2188-2414"])
p("Which craters and basins reach which cold traps",
  "With the shipped files, the craters and basins whose ejecta reach a cold trap are those of a fixed list: the trap is outside the crater and less than four (basins: five) radii from its centre along the surface. A run gives a distance to exactly these and none to the others, whatever ages it draws.",
  "All generators, seeds, drawn ages and orders of the table; all configurations with the default thresholds and any of the default cold traps.",
  "Runs print distances for one drawn table in floating point; that none is close enough to the edge of a blanket to flip, and that the draw of ages is irrelevant, needs proved error bounds for the great-circle distances.",
  ["moonpies/moonpies.py:465-512", "moonpies/moonpies.py:2764-2800", "moonpies/data/crater_list.csv:1-24", "moonpies/data/basin_list.csv:1-28"])
p("Layers are named after the craters and basins that reach them",
  "In a run with the shipped files a crater or basin on the list leaves more than a millimetre of ejecta in the cold trap it reaches and one that is not on the list none. So at each timestep ejecta fall in a trap exactly when the table dates one on the list to it, the layer is named after these, and no layer is called 'Minor source(s)'.",
  "All generators, seeds and configurations with the default ejecta parameters and any of the default cold traps, with a smallest thickness of at most a millimetre.",
  "A label depends on the drawn ages of all craters and basins and on a positive thickness for each; the tests compare a few columns.",
  ["moonpies/moonpies.py:515-761", "moonpies/moonpies.py:2546-2600", "moonpies/moonpies.py:102-143"])
p("The figure of crater and basin ages is drawn and marks the basins that reach a cold trap",
  "For the shipped files the figure has one bar for each listed crater and basin, with the listed errors about an age within them, sorted by age, on the axes and over eras that cover the axes in order; a star is before exactly those basins whose ejecta reach a cold trap, seven with the defaults. It needs a cold trap that Nectaris reaches and ends with a KeyError otherwise. The ages are drawn anew each time, so a bar need not contain the listed age.",
  "All generators, states of the operating system's randomness and seeds; all configurations with the default ejecta parameters, any of the default cold traps and timesteps of at most 10 million years.",
  "The figure draws random ages without a seed, so each time another figure is drawn; that none ends with an error, or has a marker off the axes or eras out of order, is a claim on all draws.",
  ["notebooks/figure_scripts/plot_figs.py:127-197", "moonpies/moonpies.py:230-260", "moonpies/moonpies.py:465-512"])
p("Options that only add ice or only remove it do so in whole runs",
  "Take two runs with the same seed whose options differ only in supply and loss: ballistic sedimentation off instead of on or a smaller fraction lost, shallower gardening or slower erosion, solar wind ice on instead of off, more volcanic ice, more hydrated asteroids or comets, more retained mass, more micrometeorites. The gentler run has the same ejecta and at least as much ice in every layer of every cold trap. The minimum thickness and strat_after_age change neither. For the shipped configuration this holds for every seed with ballistic sedimentation off or with comets of higher hydration, and the other way round with solar wind ice off.",
  "every pair of configurations so related, every generator, table and seed",
  "Two runs must be compared layer by layer; that the draws stay the same depends on no option disturbing the generator.",
  ["moonpies/moonpies.py:main", "moonpies/moonpies.py:update_ice_col", "moonpies/moonpies.py:get_bsed_depth", "moonpies/moonpies.py:overturn_depth_time", "moonpies/moonpies.py:get_solar_wind_ice", "moonpies/moonpies.py:volcanic_ice_head", "notebooks/figure_scripts/plot_figs.py:bsed_sensitivity_violin"])
p("Impact ice is proportional to the hydration of impactors",
  "With the same draws, multiplying hydrated_wt_pct by k multiplies the ice delivered by asteroids at every timestep by k, and comet_hydrated_wt_pct that of comets; nothing else changes, so dry impactors deliver no ice. impact_mass_retained scales only the ice of small impactors and small craters and has no effect on large craters and basins. With comets on, asteroids deliver no micrometeorite ice and mm_mass_rate does not change theirs.",
  "every configuration, factor, crater table, time array and generator state",
  "Tests compare single runs with constants; proportionality relates the results of two configurations at every timestep and for every draw.",
  ["moonpies/moonpies.py:get_impact_ice", "moonpies/moonpies.py:get_impact_ice_comet", "moonpies/moonpies.py:ice_micrometeorites", "moonpies/moonpies.py:impactor_mass2water", "moonpies/moonpies.py:ice_small_impactors", "moonpies/moonpies.py:ice_small_craters", "moonpies/moonpies.py:ice_large_craters", "moonpies/moonpies.py:ice_basins", "notebooks/figure_scripts/plot_figs.py:comet_sensitivity_violin"])
p("Layers in the figure of their distribution", "kde_layers keeps one row for each layer of the chosen runs with more than 5 cm of ice at more than 5 cm depth, in the order of the table, with the new name of its run, ice and depth to the nearest 10 cm, and the depth of the top of the ice within 10 cm but never less than 10 cm. A cold trap with up to 1000 such layers shows them all; one with more shows the first and every 300th after it, so one more layer can reduce 1000 rows to 4. The rows of different runs alternate in the table, so two runs with equally many layers, more than 500, show layers of the first run only.", "every aggregated table, names of runs and cold trap; for the last sentence any two runs of equal length", "The figure is not tested, and the selection is by position: only arguing about every table shows that the rows of a run can drop out altogether.", ["notebooks/figure_scripts/plot_figs.py:kde_layers", "notebooks/figure_scripts/aggregate.py:flatten_agg_df", "notebooks/figure_scripts/aggregate.py:rename_runs"])
p("What the figure of ballistic sedimentation shows",
  "For the shipped files distance_bsed always draws a figure. Its lower panel has a row of points for each listed crater and basin with a point for each cold trap outside the crater (for basins also within five radii): the distance along the surface to the permanent shadow, the thickness of the ejecta there by the scaling laws and below zero the depth of ballistic sedimentation, thickness times mixing ratio. The upper panel has the mixing ratios of the first six cold traps. The lines Amundsen->Faustini, ->Shoemaker and ->Haworth are at 83.3, 127.9 and 180.1 km; a line whose trap is not in the configuration is drawn at the distance of the first cold trap. The lines called Ejecta thickness and Ballistic Sed. Mixing Region join the points of the oldest row only, one of ten basins, and are empty unless this is Amundsen-Ganswindt or Schiller-Zucchius. Without a crater called Amundsen there is an error.",
  "all generators and states of the operating system's randomness, all configurations with the default ejecta parameters and any of the default cold traps",
  "The figure draws random ages without a seed; which row is first, and so what the labelled lines show, differs each time.",
  ["notebooks/figure_scripts/plot_figs.py:distance_bsed", "moonpies/moonpies.py:get_coldtrap_dists", "moonpies/moonpies.py:get_ejecta_thickness_matrix", "moonpies/moonpies.py:get_mixing_ratio_oberbeck"])
p("What the figure of ejecta thickness and mixing depth by radius shows",
  "ejecta_bsed draws at each of four distances ten simple craters, ten complex craters and ten basins with radii equally spaced on the logarithmic axis and within the limits of their kind, so none has the radius between simple and complex craters at which the thickness is zero. A marker shows the thickness by the law of its kind, and the mixing depth, if the distance is outside the crater, and nothing if it is inside: 68 of 120 are shown. Larger simple craters have thicker ejecta at the same distance on a line of slope 4, complex ones on a line of slope 3.74. At a given distance the mixing depth is the same multiple of the thickness for all craters, less than it at 1 and 10 km and more at 100 and 1000 km.",
  "the default transitions, constants and mixing ratio; every marker, every pair of markers",
  "The figure is not tested; that each kind stays within its law and every marker outside the crater has a positive thickness concerns real powers and angles, basins above all.",
  ["notebooks/figure_scripts/plot_figs.py:ejecta_bsed", "moonpies/moonpies.py:get_ejecta_thickness", "moonpies/moonpies.py:get_mixing_ratio_oberbeck"])
p("Which column each panel of the figures of stratigraphy columns shows, and to what scale",
  "plot_stratigraphy draws one row per run and one column per seed and cold trap with a gap between seeds. The panel of a run, seed and cold trap shows the column of its file, is empty if the file is missing, and every other panel is empty. Titles stand over the columns of the first run only, with the cold trap and formation time of the file. The table of ice percentages has one entry for each run, seed and cold trap with a file. The figure fails exactly if there is no column or a file cannot be drawn. All rows are drawn to one depth scale, and no layer lies below it. strat_cols_seeds puts its letters at the first column of each of three seeds, and strat_cols_bsed at the first column of each of two runs.",
  "all lists of runs, seeds and cold traps, all sets of files, all minimum thicknesses",
  "The figures are not tested; the index of an axis, the scale shared by rows and the positions of the letters depend on the numbers of runs, seeds and cold traps and on which files exist.",
  ["moonpies/plotting.py:plot_stratigraphy", "notebooks/figure_scripts/plot_figs.py:strat_cols_bsed", "notebooks/figure_scripts/plot_figs.py:strat_cols_seeds", "notebooks/figure_scripts/plot_figs.py:ice_pct_fig7", "notebooks/figure_scripts/plot_figs.py:ice_pct_fig8"])
p("What the ejecta and the delivered ice of a run depend on",
  "The ejecta columns of a run depend only on the seed, the times, the cold traps, the parameters of ejecta and the lists of craters and basins: two runs that agree on these have equal ejecta at every cold trap and time, whatever they assume about comets, asteroids, solar wind, volcanoes, hops, gardening, ballistic sedimentation and thin layers, and however rows of equal age are ordered. In particular the MoonPIES mode and the Cannon mode have the same ejecta, basins included. Conversely the crater table and the ice each cold trap receives do not depend on any option about the loss of ice, about ejecta or about the tables.",
  "all configurations and data, all random generators, all seeds",
  "Each test runs a single configuration; that an option does not reach the random numbers of another module is a statement about pairs of runs.",
  ["moonpies/moonpies.py:main", "moonpies/moonpies.py:get_crater_basin_list", "moonpies/moonpies.py:randomize_crater_ages", "moonpies/moonpies.py:random_icy_basins", "moonpies/moonpies.py:init_strat_columns", "moonpies/moonpies.py:get_ejecta_thickness_matrix", "moonpies/moonpies.py:get_ice_cols_time"])
p("Where the coefficients of ejecta temperature come from",
  "np.polyfit of degree 2 gives the closest quadratic to points with three different abscissae, and the defaults ejecta_temp_dist_params_cold and ejecta_temp_dist_params_warm are, to four significant digits, its coefficients for the temperatures of Fernandes and Artemieva (2012) with distance in crater radii. The dashed curves of the notebook show the closest quadratic at every distance.",
  "all lists of points (fit); all distances (curves)",
  "The constants are copied by hand from a notebook that is not tested, and nothing reads them, so no test would notice a wrong unit.",
  ["moonpies/config.py:Cfg", "notebooks/bsed_temp_fernandes_artemieva.ipynb"])
p("Speeds and kinetic energies of the notebook on ballistic sedimentation",
  "The notebook's speed over a sphere is the package's ballistic velocity for the same gravity and radius. At 45 degrees or less the planar speed exceeds it over every distance short of half the circumference, by a fraction that vanishes for short distances. The functions give the quoted 770 to 920 km/h over 28 to 40 km and 2750 to 2860 km/h over 400 to 435 km, and the notebook prints the speeds over these distances. The curves of kinetic energy show the energy of the ejecta at each distance.",
  "all angles, distances, gravities and radii (speeds); all crater radii (energies)",
  "Notebooks are not tested; that two arrays of equal length belong to different distances, or that an index was meant as a distance, raises no error.",
  ["notebooks/ballistic_kinetic_energy.ipynb", "moonpies/moonpies.py:ballistic_velocity", "moonpies/moonpies.py:kinetic_energy"])
p("Bulk statistics of ensemble runs",
  "For any runs with one column of ice for each default cold trap, the box, bar and violin plots name every mark after the crater whose summed ice it shows, sorted by latitude, and the box plot leaves out the first four craters. Each row of the table of statistics holds the mean, extremes, deviation and error of the crater it is named after.",
  "all numbers of runs, all tables with 13 columns (table rows: refuted, no row is right)",
  "The scripts are not tested, and a table whose labels are in another order than its rows has the right shape and plausible numbers.",
  ["notebooks/figure_scripts/older_scripts/moonPIES_stats.py"])
p("Kinetic energy of all ejecta on a grid",
  "For any southern craters, the map of kinetic energies holds at each grid point the sum over craters of the energy of their ejecta there, zero inside a crater, and converts it to tons of TNT per square kilometre. Both exported files give each point its own energy, and the axes of the contour map give its coordinates. The melted depth does not depend on the ice fraction.",
  "all southern craters, all 640000 points (x,y file and vertical axis: refuted)",
  "Swapping two indices of a square array, or drawing it upside down, gives a valid map of the same shape; only a reference for each point tells.",
  ["notebooks/figure_scripts/older_scripts/KE_contours.py"])
p("What main returns and how it is used",
  "For any run that returns, main returns a dictionary with one stratigraphy table for each distinct cold trap, in the order of the configuration. The programs in the repository that use that value work: the example in its documentation, the two sensitivity tests, and the acceptance test, whose run gives in every cold trap, at every timestep, exactly the ice of the reference model.",
  "all configurations and data; all generators and seeds for the shipped files (documentation example, sensitivity tests and acceptance test: refuted, they raise)",
  "The acceptance test fails before its first comparison, the scripts are not tested, and examples in documentation are not run.",
  ["moonpies/moonpies.py:24-77", "moonpies/moonpies.py:2654-2683", "test/test_moonpies.py:493-571", "notebooks/figure_scripts/older_scripts/sensitivity_test.py"])
p("The unit of length is immaterial",
  "Expressing every thickness (ice, ejecta, overturn depth, sedimentation depth, shielding thickness) in another unit multiplies the resulting columns by the same factor and changes nothing else, exceptions included. The tables have the same layers, labels and ice percentages, with thicknesses and depths in the new unit of length and times in the new unit of time.",
  "all columns, cold traps, depths, fractions and timesteps; all positive factors; every rounding that commutes with the factor",
  "A hard-coded length or tolerance hidden in the column update shows only when the same run is repeated in other units, which no test does.",
  ["moonpies/moonpies.py:144-221", "moonpies/moonpies.py:1384-1482", "moonpies/moonpies.py:2546-2650"])
p("A timestep in which nothing happens leaves no trace",
  "Insert into the record, at any time, a timestep without ice, ejecta, overturn or sedimentation. Every cold trap ends with the same layers plus an empty one, and its table is exactly the same, unless the inserted time is the first one younger than the age of the cold trap.",
  "all columns, cold traps, positions, records and minimum thicknesses that are not negative; exact arithmetic",
  "Tests use fixed time arrays; the result could depend on the number of layers, which the column update uses as an index.",
  ["moonpies/moonpies.py:144-221", "moonpies/moonpies.py:1384-1482", "moonpies/moonpies.py:2546-2650"])
p("A cold trap does not depend on which others are simulated",
  "Two runs that differ only in the list of cold traps give a cold trap they share the same ice, ejecta and table. What a cold trap starts with (ice, ejecta, sources, sedimentation depths) and its ejecta in the output are always the same, with the same random draws.",
  "all configurations, data files, generators and lists of distinct cold traps",
  "A test fixes one list of cold traps. The melt fractions are interpolated on a grid that contains the mixing ratios of every cold trap, so the others leak in.",
  ["moonpies/moonpies.py:24-77", "moonpies/moonpies.py:1137-1177", "moonpies/moonpies.py:1256-1307"])
p("The order in which cold traps are listed does not matter",
  "A run with the same cold traps listed in another order gives every cold trap the same ice, ejecta and table, ballistic sedimentation included.",
  "all configurations, data files, generators and permutations of the list of cold traps",
  "Arrays are filled by position along the list of names; a swapped axis or an index taken from the wrong list shows only under a permutation no test tries.",
  ["moonpies/moonpies.py:24-77", "moonpies/moonpies.py:1137-1177", "moonpies/moonpies.py:1256-1307"])
p("find_recent_layer.py reports the depth of the most recent ice",
  "For every run and cold trap the script gives the depth at which the youngest layer with ice begins. Proved: from tables in the layout it expects it takes the depth of the bottom of that layer. Refuted: that is always deeper than where the ice begins, and tables saved by the present code have other names and another order of columns, so that it raises.",
  "all tables, all saved runs and lists of run directories",
  "The script was run on one ensemble of an earlier version; nothing checks it against the files that are written now.",
  ["notebooks/figure_scripts/older_scripts/find_recent_layer.py:24-48", "moonpies/moonpies.py:2546-2603", "moonpies/moonpies.py:2651-2700"])
p("ensemble_plot.py draws the retained ice of all runs",
  "The script draws, for each file found, the ice of the second cold trap against time and starts its axis at the largest time of the last file. Refuted: the files that runs save by default do not match the pattern it searches for.",
  "all files and saved runs",
  "The pattern and the default names live in different files and are compared by nothing.",
  ["notebooks/figure_scripts/older_scripts/ensemble_plot.py:8-54", "moonpies/moonpies.py:2651-2700"])
p("Craters of the same age may be sorted in either order",
  "DataFrame.sort_values uses a sort that promises nothing about rows of equal age. Two runs whose sorts order such rows differently give every cold trap the same ice and the same ejecta. Proved when no two basins have the same age or the ice of basins is left out. Refuted otherwise: the speeds of basin impactors are drawn in the order of the sorted table, so that two basins of one age exchange their speeds.",
  "all configurations, data, generators and any two sorts by age",
  "Tests run with one version of the sort; another version of the library may order ties differently.",
  ["moonpies/moonpies.py:1951-1955", "moonpies/moonpies.py:1852-1873", "moonpies/moonpies.py:762-809", "moonpies/moonpies.py:144-221"])
p("The notebooks call the figure functions with arguments they take",
  "A call binds exactly if every positional and keyword argument has its own parameter and every parameter without default receives one; otherwise it raises TypeError. Every figure of the notebooks of the paper and its supplement is called with keywords its function takes, whatever their values. Refuted for Figures S5 to S8: the notebook passes fsave, and the four functions take only datedir, so each cell raises TypeError. Refuted for older scripts and a notebook: they ask moonpies.py for nine names it does not define, which raises AttributeError.",
  "all parameter lists, positional and keyword arguments; all calls in the two notebooks with all argument values",
  "No test executes the notebooks or the older scripts.",
  ["notebooks/figure_scripts/plot_figs.py:1198-1232", "notebooks/2023_JGR_figs.ipynb:1", "notebooks/2023_JGR_sup_figs.ipynb:1"])
p("The tables of ice percentages show the layers of Figures 7 and 8",
  "ice_pct_fig7 and ice_pct_fig8 show, for each stratigraphy file of the figure and no other, a column with the ice percentage of every layer from the top down, and blank cells below. Below 10 % the text is the nearest number with two decimals, from there on it has one decimal and is off by at most 0.055; more ice is never shown as less. The tables of Figure 8 exist exactly if both runs have a file of seed 7 (KeyError, or ValueError without any file). Refuted: the text from 10 % on is the nearest number with one decimal; 12.746 % is rounded twice and shown as 12.8 %.",
  "all stratigraphy files, percentages, sorts",
  "The functions are only run by hand in a notebook; the double rounding shows for particular values only.",
  ["notebooks/figure_scripts/plot_figs.py:1213-1232", "moonpies/plotting.py:56-168"])
p("The mean ice of drawn craters is count times chance times mean mass",
  "For every physical configuration, kind of impactor, regime of drawn craters and timestep: what get_ice_stochastic returns is the sum, over the craters whose uniform draw is below the chance of being wet, of the ice of an impactor of that crater and its drawn speed; and the mean of that over the rounding of the number, the diameters, the wet draws and the speeds is the expected number of craters times the chance times the mean ice of one wet impactor. The laws of speeds of asteroids and comets give finite and positive means. Refuted: the mean is the expected number of craters of the kind times the wet fraction of the kind times the mean ice of one. The share of the kind enters twice, so with the default configuration 5 % of the ice of comets and 95 % of that of asteroids is delivered in the mean.",
  "all physical configurations, generators, regimes, timesteps, laws of speeds bounded away from zero",
  "A test sees single draws; the mean over all of them, and a factor of 20 hidden in a noisy sum, needs an expectation.",
  ["moonpies/moonpies.py:1723-1757", "moonpies/moonpies.py:1838-1849", "moonpies/moonpies.py:1958-1981", "moonpies/moonpies.py:2094-2106"])
p("Counting impacts in floating point",
  "In double precision, for all values: the share of the draws of rng.random below a chance is the chance to within 2^-53, and the share of draws that make a wet impactor is the exact chance to within 4 * 2^-53; the mean of probabilistic_round(x) over all draws is x to within (x + 2) * 2^-53; the result is the floor or the ceiling of x unless x plus the draw is within its rounding error of the next whole number, and never more than one off; no basin is made by an asteroid and a comet; with whole numbers below 2^53 as settings get_diam_array has exactly (dmax - dmin) // step + 1 diameters. The four regimes of the default configuration have the diameters their numbers say. Refuted: probabilistic_round keeps whole numbers (5 with the greatest draw is 6), and get_diam_array has (dmax - dmin) / step + 1 diameters for all settings (from 0.2 to 0.5 by 0.1 it has 3, not 4).",
  "all values, draws, fractions and settings, every rounding to nearest with relative error 2^-53",
  "The differences show up in about one draw in 10^15, or only for settings nobody tried.",
  ["moonpies/moonpies.py:1958-2008", "moonpies/moonpies.py:2157-2160", "moonpies/moonpies.py:2793-2814"])
p("What the documentation says about output files is checked against the code",
  "The quickstart example of plotting an output directory finds the tables of a run without out_path, and in general finds them exactly if the last directory given as out_path is the run name: with the out_path recommended in the README it finds none. An out_path in the home directory puts tables and configuration there but the figures in a directory named '~' of the current one. The saved configuration is never called config_<run_name>.py. Runs without out_path share a directory exactly if current directory, date, run name and seed agree. The configuration file of the quickstart guide is read as the published default run without solar wind and with denser impactors.",
  "every environment, argument list, home and current directory, output directory, run name, seed and cold trap",
  "The documentation is prose: no test runs its examples, and the tests never read tables back through plot_stratigraphy; whether they are found depends on directory names, of which there are infinitely many.",
  ["README.md:86-114", "docs/quickstart.md:36-70", "moonpies/plotting.py:56-107", "moonpies/config.py:294-324", "moonpies/config.py:397-419"])
p("A crater whose ejecta reach no cold trap leaves no trace in the results",
  "A crater or basin that is not a simulated cold trap, whose ejecta reach none and which brings no ice can be left out of the dated table without changing any result or error of the run. This holds for every crater beside another crater, and for all such rows together if the ejecta temperatures are columns of the melt table, as with the shipped files: a run there is what it makes of the rows that reach a trap, are one or bring ice. It fails for a basin with a temperature found nowhere else, because the melt fractions of other craters are interpolated by column position.",
  "every generator, configuration, data, time array, table of craters, position in the table, age and cold trap",
  "Needs two whole runs with the same draws and tables of different length; the tests fix the shipped crater list, and with its temperatures the dependence on an unrelated basin does not show.",
  ["moonpies/moonpies.py:60-77", "moonpies/moonpies.py:465-512", "moonpies/moonpies.py:1137-1177", "moonpies/moonpies.py:1256-1307", "moonpies/moonpies.py:1852-1873"])
p("Only the distances between craters and cold traps matter, not how places are written",
  "A run on craters, basins and shadowed regions that are all moved by the same distance-preserving move gives the same results and the same errors. Such moves are turning about the axis, mirroring east and west, exchanging the poles, and writing longitudes in another range such as 0 to 360 instead of -180 to 180.",
  "every generator, configuration, crater and basin list, angle, choice of longitude range and seed",
  "Needs pairs of whole runs for a continuum of moves; the tests have one crater list in one longitude convention.",
  ["moonpies/moonpies.py:465-512", "moonpies/moonpies.py:230-260", "moonpies/moonpies.py:2764-2789", "moonpies/moonpies.py:24-77"])
p("A run that completes was given all it needs",
  "A run that completes was given at least one cold trap, all cold traps listed in the crater or basin file and only once, an error bar for every listed crater and basin, at least one timestep, the volcanic mode Head, the species H2O or CO2, a known solar wind mode with a luminosity table if needed, and a ballistic hop entry for every cold trap if hops are used. With the shipped files and otherwise default parameters this is exact: the run completes just for nonempty lists of the twelve southern cold traps, volcanism Head, species H2O or CO2 and solar wind Benna or Lucey-Hurley.",
  "every generator, configuration, crater and basin list, choice of cold traps and modes, and seed",
  "Needs all ways in which a run can go wrong; the tests run the default configuration only.",
  ["moonpies/moonpies.py:24-77", "moonpies/moonpies.py:309-345", "moonpies/moonpies.py:446-511", "moonpies/moonpies.py:904-935"])
p("Precomputed deliveries amount to laying down layers one by one",
  "Although all deliveries of ice are computed before the update loop, the ice of every cold trap at the end of a run with gardening by Costello et al. is that of a pile that grows event by event: in each timestep ballistic sedimentation works the pile from the top, then the new ice and ejecta are laid on it, then impact gardening works the whole pile from the top. A run can therefore be cut after any timestep and taken up again. Laying down the ice first in a timestep, as the documentation describes it, gives the same column without ballistic sedimentation, but not in general.",
  "every generator, configuration, data, cold trap, timestep and point of interruption",
  "Needs the whole loop related to another program for all columns; the tests compare single columns of a few layers.",
  ["moonpies/moonpies.py:144-226", "moonpies/moonpies.py:1440-1484", "docs/model_overview.md:19-27"])
p("Only ratios of masses matter",
  "Multiplying all densities of the configuration (ice, target, impactor, comet, magma) and the supply of micrometeorites by one nonzero factor changes nothing in a run without solar wind: neither the random choices, nor any table, nor the errors. The solar wind is the exception, since its supply is written into the code in kilograms: its ice is divided by the factor.",
  "every generator, configuration, data and nonzero factor",
  "Compares two whole runs for all factors; the tests check the supplies one by one with the default densities.",
  ["moonpies/moonpies.py:893-934", "moonpies/moonpies.py:1803-1850", "moonpies/moonpies.py:2190-2245", "moonpies/moonpies.py:934-1020", "moonpies/moonpies.py:1091-1130", "moonpies/config.py:142-254"])
p("Columns of whole numbers round the depth of gardening up",
  "The tests of gardening and erosion pass integer arrays, which drop the fraction of what is stored in them. On such columns gardening with ejecta in whole metres, the erosion of Cannon et al. and the reference the tests compare with all do what they would do to the same numbers at the depth rounded up to a whole metre. So these comparisons hold for any depth of erosion of up to a metre, and cannot tell whether it is 0.1 m.",
  "every column of integers, ejecta, depth, shield and time index",
  "It is about what the tests themselves compute: they hold as equalities between two rounded columns.",
  ["test/test_moonpies.py:273-364", "test/test_moonpies.py:462-497", "moonpies/moonpies.py:1384-1484"])
p("The gardening that the tests expect counts all ice toward the depth",
  "The columns expected in test_garden_ice_column follow from the rule that a layer counts toward the depth with all the ice it held. The code counts only the ice left in it, and so fails that test. The code takes at least as much from every layer as the rule, which never takes more than the depth in all. Both agree while the uppermost ice is at least twice as thick as gardening reaches into it.",
  "every column of ice and ejecta, depth and time index",
  "The test states the rule by four columns, two of which the code does not meet; the relation of code and rule is for all columns.",
  ["test/test_moonpies.py:462-497", "moonpies/moonpies.py:1440-1484"])

p("Settings of what is switched off have no effect",
  "Each group of settings belongs to a module that can be switched off or to one of two alternatives. Two runs that agree on the switches and on the settings and files in use give the same result or the same exception, whatever the other settings are. With comets off, two runs that complete also agree whatever the settings of comets are.",
  "every generator, pair of configurations and pair of data files",
  "A test tries a few values of a few settings; the claim is for all values of all settings of all modules at once.",
  ["moonpies/config.py:63-271", "moonpies/moonpies.py:24-77", "moonpies/moonpies.py:812-895"])

p("How much ice a layer keeps to the present",
  "The gardening of its own timestep leaves a layer at most its ice less the depth it reaches below the ejecta of that timestep, so that a layer no thicker than the depth of gardening leaves nothing. Later events take at most what they reach below the ejecta lying on the layer by then. Ice under enough ejecta is therefore kept in full: without sedimentation, whatever lies under as much ejecta of its own timestep as gardening is deep at its time.",
  "every sequence of deliveries and every complete run with gardening after Costello et al.",
  "Tests look at single calls on short columns; the bounds are for all histories and whole runs.",
  ["moonpies/moonpies.py:144-226", "moonpies/moonpies.py:1351-1381", "moonpies/moonpies.py:1440-1484", "moonpies/moonpies.py:1488-1554"])
p("Settings a run cannot tell apart",
  "Two settings that enter a run only through a product or a ratio can be traded against each other without changing the run at all: area of the cold traps and density of ice, fraction of C-types and fraction of them hydrated, volume, density and ice content of magma, intercept of the small impactor flux and Earth to Moon ratio, all efficiencies and density. With the table of hop efficiencies in use the overall hop efficiency has no effect.",
  "for all generators, settings, data files and non-zero factors",
  "A test compares two particular settings. That whole runs coincide, with all their random draws and exceptions, for every factor is a statement about every setting.",
  ["moonpies/moonpies.py:842-860", "moonpies/moonpies.py:898-930", "moonpies/moonpies.py:1117-1121", "moonpies/moonpies.py:263-296"])
p("What the length of the timestep does to the number of impacts",
  "Impacts of a timestep are counted at the flux of its older end, so that the total over a run ending at the present exceeds what the chronology gives for the same years. The total is known exactly, is the yearly rate of today times the same number for micrometeorites, small impactors, small craters and the number of larger craters, grows with the length of the timestep and tends to the chronology's number as the timestep goes to 0. With the default times it is between 3.4 and 3.6 percent too large.",
  "for all settings, all timesteps that divide the time simulated, and all lengths of time",
  "A test compares a few lengths of timestep; growth with the timestep, the limit and the exact excess are statements about all of them.",
  ["moonpies/moonpies.py:80-98", "moonpies/moonpies.py:1784-1835", "moonpies/moonpies.py:2077-2136", "moonpies/moonpies.py:2163-2184"])
p("Gardening after Costello et al. is per timestep",
  "The ice a cold trap keeps is at most the sum of what each timestep delivers above the reach of its own gardening. With deliveries no thicker than gardening is deep, only timesteps with ejecta keep any, at most one delivery each. As the depth is reached in every timestep however short, all ice of a supply of bounded rate is lost in the limit of short timesteps. Erosion as in Cannon et al. scales with the timestep and leaves the same whatever its length.",
  "for all sequences of deliveries, all complete runs with gardening after Costello et al., and all timesteps",
  "A limit of short timesteps and a bound over all histories cannot be run.",
  ["moonpies/moonpies.py:144-226", "moonpies/moonpies.py:1384-1484", "moonpies/moonpies.py:1488-1554"])
p("Without ballistic sedimentation craters only protect ice",
"With ballistic sedimentation off, leaving craters and basins out of a run that are neither cold traps nor bearers of ice never leaves any layer of any cold trap with more ice: their ejecta only shield. This holds for both ways of gardening, and the run without them also completes. With ballistic sedimentation on it fails.",
"for every lawful generator, physical configuration, table of craters and choice of rows to leave out",
"It compares all pairs of runs that differ in any set of craters; tests run a few configurations.",
["moonpies/moonpies.py:186-226", "moonpies/moonpies.py:696-733", "moonpies/moonpies.py:1256-1307", "moonpies/moonpies.py:1351-1484"])
p("How much gardening amplifies a small change",
"Two gardenings of n layers whose columns and depths differ leave ice that differs by at most what the ice differed before plus 2^n - 1 times everything that differed; so gardening a column d metres deeper takes at most (2^n - 1) d metres more ice. That bound is reached for every n, because ice that is lost no longer counts towards the depth. The erosion after Cannon et al. (2020) does not amplify: the change is at most the sum of the changes of ice and depth, and over a whole run at most the change of the eroded depth times the number of timesteps.",
"for every pair of non-negative columns, depths, efficiency from 0 to 1 and number of layers; for every lawful generator and configuration with Cannon erosion and no sedimentation",
"It bounds the difference of all pairs of nearby inputs and shows that the bound is attained at every column length; tests compare single results.",
["moonpies/moonpies.py:1351-1381", "moonpies/moonpies.py:1384-1437", "moonpies/moonpies.py:1440-1484"])
p("Gardening and erosion in floating point",
"Erosion after Cannon et al. (2020) in rounded arithmetic stays within one rounding per layer and timestep of exact arithmetic, so a column of 425 timesteps in double precision, with layers and depths up to 1024 m, is right to a tenth of a micrometre. One gardening of n layers is right to 7 (2^n - 1) roundings; it has no better guarantee in general: 100 layers of 0.1 + 0.2 m gardened to 0.3 m are all lost in exact arithmetic, while in double precision more than 13 of 30 m are kept.",
"for every monotone rounding with bounded relative error, all non-negative representable columns, depths, efficiencies and numbers of timesteps",
"It bounds the rounding errors of all columns and of every length at once, and compares with exact arithmetic, which tests in floating point cannot see.",
["moonpies/moonpies.py:1384-1437", "moonpies/moonpies.py:1440-1484"])
p("Additional ice is kept at most once",
"When more ice is delivered to a cold trap, no more than the additional ice is left in it at the end. With the erosion after Cannon et al. (2020) this holds for every column and for whole runs whose options only add ice. With gardening after Costello et al. it fails by any factor: a youngest layer d metres thicker can leave 2^n d metres more ice in n + 1 layers.",
"for every pair of supplies, ejecta and shield; for every lawful generator and pair of configurations with Cannon erosion and no sedimentation; for every n",
"It compares all pairs of runs with more and less supply and exhibits columns of every length that break the claim; tests look at single runs.",
["moonpies/moonpies.py:144-226", "moonpies/moonpies.py:1351-1484"])
p("The craters and distances of the notebook on Cannon et al. (2020)",
"The great-circle distance of the notebook is that of the package. Its grid of ejecta distances holds the distance from each crater to each point, missing within the crater. Its selections hold the craters within 250 km of the south pole and those outside of the grid whose ejecta to four radii reach it, or come within 6 degrees of the pole. The transient radius grows with the radius, the polar grid is symmetric about the pole, and the nearest grid point is found.",
"for every pair of places, crater, grid, row of the table, radius, size of grid and point",
"It quantifies over all craters and grid points; the notebook has no tests, and its pictures show the craters of one table.",
["notebooks/cannon2020.ipynb:940-1028", "notebooks/cannon2020.ipynb:1149-1156", "notebooks/cannon2020.ipynb:1241-1297", "notebooks/cannon2020.ipynb:1469-1491", "notebooks/cannon2020.ipynb:1583-1593", "notebooks/cannon2020.ipynb:1655-1658"])
p("The names of craters are immaterial",
"Craters and basins other than the cold traps may be given any other names, as long as none is named like a cold trap: the run fails or completes alike, and all columns of ice and ejecta are the same. If the names are plain (not empty, without commas and none of the labels Ice, Minor source(s) and Formation age) and remain different from each other, the stratigraphy tables too are the same layer by layer, but for the names in the labels. Names that are not plain, or that coincide, change which layers are merged.",
"for every generator, configuration, data and renaming",
"It compares all runs with all their renamings; tests use the shipped names.",
["moonpies/moonpies.py:465-512", "moonpies/moonpies.py:696-733", "moonpies/moonpies.py:2546-2638"])
p("The names of cold traps are immaterial",
"Cold traps, craters and basins may all be renamed together, in the configuration, in the lists of craters and basins and in the table of ballistic hops, as long as different names remain different: the run fails or completes alike, and the columns of ice and ejecta and the stratigraphy tables are the same under the new names. If the table of hops is used and does not know a name, the run does not complete; cold traps of the same name share one column.",
"for every generator, configuration, data and injective renaming",
"It compares all runs with all their renamings; tests use the shipped names.",
["moonpies/moonpies.py:102-141", "moonpies/moonpies.py:465-512", "moonpies/moonpies.py:1766-1781", "moonpies/moonpies.py:2606-2638"])
p("Averaging before or after the losses",
"For columns with the same ejecta under the erosion of Cannon et al. alone, the mean of what is left, with any weights, is at least what would be left of the mean delivery; so in an ensemble of runs in this mode with the same ejecta in a cold trap, a run with the mean supply would underestimate the mean of the ice kept. The gardening of Costello et al. has neither this inequality nor its converse.",
"for all weights, deliveries, ejecta and depths of erosion, and for all ensembles of completed runs in this mode",
"It compares the mean over all ensembles with a run on the mean; tests look at single runs.",
["moonpies/moonpies.py:1351-1437", "moonpies/moonpies.py:1440-1490"])
p("What the length of the timestep does to volcanic and solar wind ice",
"An epoch of volcanism inside a run is counted with its length to less than one timestep, and with exactly its length when that is a whole number of timesteps, wherever it starts; so the volcanic ice of a run is the yearly ice times the fraction times the length of each epoch, independent of the timestep. With a constant sun the solar wind ice is the rate times the length of the run; with a sun that brightens, two timesteps give solar wind ice that differs by at most the supply gained over the run times the longer timestep, and refining a timestep never lowers it.",
"for all start times, timesteps, epochs, fractions and luminosity tables",
"It compares runs with all pairs of timesteps; tests fix one.",
["moonpies/moonpies.py:960-1020", "moonpies/moonpies.py:1091-1133", "moonpies/config.py:248-254"])
p("How much the ice of drawn craters varies",
"The variance of the ice that the craters drawn in a timestep bring is the expected number of craters times the variance of what one crater brings, plus the variance from rounding the number; it is always at most, and for positive mean strictly less than, the variance if impactors fell independently (Poisson), and the difference is the square of the mean of one crater times the expected number less that from rounding.",
"for all configurations, laws of speeds, regimes with craters drawn one by one, and timesteps",
"A variance over all draws cannot be tested, only estimated.",
["moonpies/moonpies.py:1723-1757", "moonpies/moonpies.py:2793-2814"])
p("In cannon mode erosion damps the variance of the ice delivered",
"Under the erosion of Cannon et al. alone and with fixed ejecta, if each timestep delivers ice independently of the others, the variance of the ice a column keeps is at most the sum of the variances of the deliveries; in an ensemble of whole runs, however the deliveries hang together, it is at most the mean square of how far the deliveries are from any one column. The gardening of Costello et al. has no such bound: it can multiply the variance by 4 to the power n in a column of n + 1 layers.",
"for all columns, ejecta, erosion rates and laws of the deliveries, and all ensembles of runs",
"A variance over all draws cannot be tested, only estimated, and a bound on it for every law still less.",
["moonpies/moonpies.py:1351-1437", "moonpies/moonpies.py:1440-1490"])
p("Which layers survive the erosion of Cannon et al.",
"Let the balance of a period be the ice delivered in it less the erosion depth for each of its timesteps not shielded by ejecta. Without Costello gardening and ballistic sedimentation, the ice left in a cold trap from all timesteps since a given one is the greatest balance of the periods that begin then or later and last to the present. A layer has ice left exactly if the balance since its timestep exceeds that of every later period, and then it has the difference to the greatest of these. In the shipped configuration of cannon mode a cold trap ends without ice exactly if no period up to the present has a positive balance.",
"for all deliveries, ejecta, erosion rates and columns, and for all completed runs in this mode",
"It is an identity between the result of the loop and a maximum over all periods, for any number of timesteps.",
["moonpies/moonpies.py:1351-1437", "moonpies/moonpies.py:1440-1490"])
p("How the ice kept depends on the rate of erosion",
"Take runs without Costello gardening and ballistic sedimentation that differ only in ice_erosion_rate. In every cold trap the ice left from each timestep on is a convex and decreasing function of the rate. Raising the rate takes at most the additional depth for each timestep that is not shielded by ejecta. At rate zero all delivered ice is left. None is left exactly if in every period up to the present the ice delivered is at most the erosion depth times the number of unshielded timesteps in it.",
"for all generators, configurations in this mode, data and rates that are not negative",
"It is about the result of a run as a function of a real parameter, of which tests see single values.",
["moonpies/moonpies.py:1351-1437", "moonpies/moonpies.py:1488-1519"])
p("How the ice kept depends on hydration and the rate of erosion together",
"Take runs without Costello gardening and ballistic sedimentation that differ only in hydrated_wt_pct, comet_hydrated_wt_pct and ice_erosion_rate. What a cold trap receives at each timestep is an affine function of the two hydrations with coefficients that are not negative and do not depend on the rate. The ice left from each timestep on is the greatest, over the periods that begin then or later, of the ice received in the period less the erosion of its unshielded timesteps. It is a convex function of the three parameters together.",
"for all generators, configurations in this mode, data, and hydrations and rates that are not negative",
"It is about the result of a run as a function of three real parameters, of which tests see single values.",
["moonpies/moonpies.py:1351-1437", "moonpies/moonpies.py:1488-1519", "moonpies/moonpies.py:812-895", "moonpies/moonpies.py:1558-1640"])
p("What the length of the timestep does to the erosion of Cannon et al.",
"Cut every timestep into m parts, each with an m-th of the ice delivered and an m-th of the depth eroded. If the parts of a timestep are shielded by ejecta exactly when the timestep was, the ice left from each of the original timesteps on is the same, so the erosion of a continuous supply does not depend on the length of the timestep. If only some of the parts of a shielded timestep are shielded, as when the ejecta land in one of them, no more ice is left, and there are columns with less: ejecta protect ice for one timestep, however long.",
"for all columns, depths of erosion, shields and numbers of parts",
"It compares whole histories of columns for all ways to cut them.",
["moonpies/moonpies.py:1351-1437"])
p("What volcanism and the solar wind leave with the shipped configuration",
"With the default configuration and the shipped files, whatever the seed and the hydration of impactors, volcanism and the solar wind bring less than 0.053 m of ice to any cold trap in a timestep, which gardening removes unless ejecta land in the same timestep: every layer keeps at most what impactors brought and the ejecta of the timestep together less 0.037 m. If impactors are dry, ice is kept only at timesteps with more than 0.037 m of ejecta, and at most 0.053 m at each.",
"for all generators, seeds, orders of rows with equal age, and hydrations that are not negative",
"It bounds every layer of every run; random draws of craters differ between runs.",
["moonpies/moonpies.py:812-895", "moonpies/moonpies.py:934-1022", "moonpies/moonpies.py:1110-1150", "moonpies/moonpies.py:1440-1556", "moonpies/config.py:213-271"])
p("Gardening after Costello et al. against the erosion of Cannon et al.",
"Two runs that differ only in impact_gardening_costello (and the second in having no ballistic sedimentation) bring the same ice and ejecta to every cold trap. If at every timestep erosion is shielded, or gardening is deeper than all ejecta there are by what is eroded, or the ice delivered is at least what is eroded and gardening is deeper than the ejecta on it by as much, then gardening leaves no more ice than erosion in any layer; so from some depth on it always does. If at every timestep the ejecta are as thick as gardening is deep, and there is no sedimentation, gardening leaves all ice. In general neither model keeps more.",
"for all configurations, data, generators, cold traps and timesteps",
"It compares two models of loss in every layer over all histories of ice and ejecta.",
["moonpies/moonpies.py:1351-1381", "moonpies/moonpies.py:1384-1437", "moonpies/moonpies.py:1440-1484", "moonpies/moonpies.py:1488-1554"])
p("What the stratigraphy tables leave out",
"A table of layers leaves out at most cfg.thickness_min of ice and as much of ejecta for each timestep since the cold trap formed. The depth of each layer in the table is the depth of its base in the column, but for at most twice cfg.thickness_min for each younger timestep that is too thin to be shown. With the default configuration and the shipped files depths in the tables are never too small by more than 0.85 m, and never too large.",
"for all columns, thresholds and ages; for all runs, cold traps and layers",
"It bounds the error of every depth for all columns; thin timesteps are many and scattered.",
["moonpies/moonpies.py:2546-2595", "moonpies/moonpies.py:2598-2603", "moonpies/config.py:155"])
p("The ice that every run brings, whatever the seed",
"The ice a cold trap receives in a timestep is a part that the configuration and the files fix, whatever the seed and the craters, and a part that is drawn and never negative: large simple craters, complex craters and basins. The fixed part has at least the ice of micrometeorites. With the default configuration and the shipped files micrometeorites alone bring more ice than gardening is deep to Faustini, Amundsen, Cabeus, Cabeus B, Idel'son L and Wiechert J at all timesteps before 3.95 Gyr ago and to all cold traps but Shackleton before 4.15 Gyr ago; to Shackleton they never do. So every run, whatever the seed, keeps ice from each of these timesteps unless later events reach it.",
"for all configurations, files, generators, seeds, crater tables, cold traps and timesteps",
"A test sees the ice of some seeds; the floor common to all is not computed anywhere in the code, and the comparison with gardening is for every timestep.",
["moonpies/moonpies.py:1558-1588", "moonpies/moonpies.py:1784-1808", "moonpies/moonpies.py:866-895", "moonpies/moonpies.py:812-863", "moonpies/moonpies.py:1488-1519", "moonpies/config.py:213", "moonpies/config.py:269"])
p("A layer does not depend on what lies below it",
"The ice of the layers laid down from any timestep on is what these timesteps leave on their own: no ice delivered before, however much, changes what gardening, sedimentation or erosion takes from layers above. So two runs with the same seed that differ only in their volcanism have the same ejecta everywhere and the same ice in every layer laid down after the last eruption of either. With the default configuration and the shipped files every layer of the last 2 Gyr holds the same ice however much magma erupted, whatever the seed.",
"for all configurations, files, generators, seeds, cold traps and timesteps",
"A test compares the layers of some pairs of runs; that losses reach only downwards is a statement about every sequence of events and every starting column.",
["moonpies/moonpies.py:144-226", "moonpies/moonpies.py:1440-1484", "moonpies/moonpies.py:1091-1133", "moonpies/config.py:247-255"])
p("A configuration file whose brackets do not match is refused",
"Every text that is read as a configuration has matching brackets outside its strings and comments: each closes the last one open, of the same kind, and none stays open. So a file in which a bracket is missing, doubled or of the wrong kind is refused whatever else it holds, rather than read as other options.",
"for all texts",
"Tests read one file that the program wrote itself; a statement about what is never accepted quantifies over all texts.",
["moonpies/config.py:read_custom_cfg", "moonpies/config.py:432-443"])
p("What the least thickness of a layer changes",
"cfg.thickness_min changes neither the columns of ice and ejecta of a run nor whether and with what error it stops, for all configurations and data. The stratigraphy tables of the run with the larger value hold no more ice and no more ejecta. They may have more layers: where ejecta no longer count, the ice below them becomes a layer of its own.",
"for all configurations, data, generators, seeds and pairs of values",
"A test compares tables for some values; that columns cannot depend on the value, although it enters the labels carried through the main loop, is about all runs.",
["moonpies/moonpies.py:2546-2595", "moonpies/moonpies.py:get_ejecta_thickness_time", "moonpies/config.py:155"])
p("What strat_after_age changes",
"If a run with cfg.strat_after_age returns, so does the run without it, with the same columns of ice and ejecta. The table of each cold trap is then a row labelled Formation age, which holds nothing, followed by the part since that age of the table made without the switch: the layers that ended before are missing, at most one layer has lost its older part, and all younger layers are the same with the same depths and percentages.",
"for all physical configurations and data with ordinary names, generators and seeds",
"A test compares two tables; that nothing younger than the trap can change with the switch, whatever the layers are and wherever the cut falls, is about all columns.",
["moonpies/moonpies.py:2546-2595", "moonpies/config.py:78"])
p("What happened before a cold trap formed leaves no trace in its table",
"With cfg.strat_after_age the table of a cold trap is made of the timesteps since its formation only, and what these hold depends only on what happens since then. So two cold traps in which the same things happen since the age at which the table starts have the same table, whatever ice and ejecta the model laid down before, and runs that differ only in volcanism older than a cold trap give it the same table. With the shipped files and volcanism that ends 3.3 Ga ago, the table of Shackleton does not depend on the volume erupted.",
"for all sequences of events, physical configurations and data, generators and seeds",
"The model gives every cold trap ice from the start of the run, long before the crater exists. That none of it can reach the table through gardening or sedimentation is about all columns and all runs.",
["moonpies/moonpies.py:2546-2595", "moonpies/moonpies.py:144-183", "moonpies/moonpies.py:1440"])
p("Comparing the cold traps of one run",
  "With ballistic sedimentation off, of two cold traps of one run the one with at least the other's hop efficiency and at least its ejecta at every timestep keeps at least as much ice in every layer, whichever way of gardening is used and wherever the two stand in the list. When ejecta blankets end at the rim no cold trap gets any ejecta, and the cold traps are ordered by hop efficiency alone. With ballistic sedimentation on, more ejecta can mean less ice.",
  "for every lawful generator, physical configuration and data, completed run and pair of cold traps",
  "It relates two columns of every possible run; tests look at fixed columns.",
  ["moonpies/moonpies.py:144-183", "moonpies/moonpies.py:186-226", "moonpies/moonpies.py:465-512", "moonpies/moonpies.py:812-863"])
p("How many layers a table can have",
  "The table of a cold trap has at most two layers for each timestep at which the trap gets more ejecta than the least thickness shown, plus one, plus the mark of the formation age if that is shown. There are never more such timesteps than craters and basins that leave ejecta in the trap. On the shipped files with the default ejecta scaling the number is therefore bounded by the list of craters and basins that reach the trap, for every seed, and no table has more than 30 rows.",
  "for every list of timesteps; for every lawful generator, physical configuration and data and completed run; for every seed on the shipped files",
  "Tests see the tables of a few seeds; the bound holds for all of them and for every choice of data.",
  ["moonpies/moonpies.py:2546-2595", "moonpies/moonpies.py:2598-2603", "moonpies/moonpies.py:465-512"])
p("Which craters the table of a cold trap names",
  "With distinct plain names, a crater or basin is named in the stratigraphy table of a cold trap exactly if it leaves more ejecta there than the least thickness shown, its age lies within the times of the run and, with strat_after_age, the time nearest to its age is younger than the cold trap. It is then named in exactly one layer, whose time is that time. No cold trap is named in its own table.",
  "for every lawful generator, physical configuration and data, completed run, cold trap and crater or basin of the table",
  "It is an equivalence over every row of every possible table; tests look at labels of fixed inputs and never at whether a name is missing or repeated.",
  ["moonpies/moonpies.py:465-512", "moonpies/moonpies.py:2546-2595", "moonpies/moonpies.py:2598-2603"])
p("The table of a cold trap younger than all that reach it",
  "If every crater and basin that leaves ejecta in a cold trap is dated to a time before the trap formed, its table with strat_after_age consists of the mark of the formation age, at the first model time within the age of the trap, and nothing else or one layer of pure ice (0 m of ejecta, 100 % ice) that holds the ice of all later timesteps with more than the least thickness shown. With the shipped files, the default times and the default ejecta scaling this is the table of Shackleton for every seed.",
  "for every list of timesteps; for every lawful generator, physical configuration and data and completed run; for Shackleton for every seed",
  "That no seed ever gives Shackleton a layer of ejecta is a statement about all seeds; tests run a few.",
  ["moonpies/moonpies.py:2546-2595", "moonpies/moonpies.py:2598-2603", "moonpies/moonpies.py:465-512", "moonpies/data/crater_list.csv"])
p("What a layer that names craters holds",
  "With distinct plain names, a layer of a stratigraphy table that names a crater or basin is made of exactly one timestep: its ice and its ejecta are the entries of the columns of the cold trap at the time nearest to the age of the crater, and layers of different times are never merged into it. Its ejecta are those of all craters and basins dated to that time, and its name lists those of them that leave more than the least thickness shown. On the shipped files with the default ejecta scaling its ejecta are therefore those of the craters it names and of no other.",
  "all generators, configurations, data with distinct plain names, seeds and cold traps; all lists of timesteps",
  "a test shows this for the tables of some seeds; that no two timesteps ever get one name follows from the names, ages and thicknesses of all runs",
  ["moonpies/moonpies.py:696-733", "moonpies/moonpies.py:762-809", "moonpies/moonpies.py:2546-2595"])
p("What a layer labelled Ice holds",
  "With names that are none of the fixed labels, a layer of a stratigraphy table that is labelled Ice holds more ice than ejecta, and its percentage of ice is a number from 50 to 100. It may hold some ejecta, from timesteps with no more than the least thickness shown. On the shipped files with the default ejecta scaling there are no such timesteps: whatever the seed, every layer labelled Ice has 0 m of ejecta, some ice and 100 % ice.",
  "all lists of timesteps with ejecta that are not negative; all generators, configurations, data with plain names, seeds and cold traps",
  "a layer merges any number of timesteps, and tests look at the tables of a few seeds",
  ["moonpies/moonpies.py:2546-2595", "moonpies/moonpies.py:2598-2603", "moonpies/data/crater_list.csv"])
p("What is older lies below",
  "Of two layers of a stratigraphy table below the mark of the formation age the one with the older time comes first, and its top lies no higher than the base of the other; no two such layers have one time. With distinct plain names, two craters or basins that the table of a cold trap names are therefore named in one layer, or in two layers of which that of the older crater lies below that of the younger one, in every run that returns.",
  "all lists of timesteps with descending times and thicknesses that are not negative; all generators, configurations, data with distinct plain names, seeds, cold traps and pairs of craters",
  "the order of two craters in a table depends on their drawn ages, on rounding to the nearest time and on merging; tests look at a few tables",
  ["moonpies/moonpies.py:2546-2595", "moonpies/moonpies.py:762-809", "moonpies/moonpies.py:465-512"])
p("The ejecta of a table are those of the craters it names",
  "On the shipped files with the default ejecta scaling and any seed the ejecta of all layers of the table of a cold trap together are exactly the ejecta that the craters and basins named in it leave there, each counted once, and exactly the ejecta of the column of the cold trap, with strat_after_age since the cold trap formed: none is left out and none is added.",
  "for every seed, lawful generator and physical configuration with default ejecta scaling and at most 1 mm of least thickness",
  "tables leave out what is too thin; that this is never so for ejecta is a statement about all seeds, and tests run a few",
  ["moonpies/moonpies.py:2546-2595", "moonpies/moonpies.py:696-733", "moonpies/data/crater_list.csv", "moonpies/data/basin_list.csv"])
p("Layers of different cold traps correlate",
  "In every run that returns, with distinct plain names, the layers of two cold traps that name the same crater or basin have the same time. Two craters that the tables of both cold traps name are in one layer in one table exactly if they are in the other, and the layer of the first lies below that of the second in both tables or in neither.",
  "all generators, configurations, data with distinct plain names, seeds, pairs of cold traps and pairs of craters",
  "the tables are made one by one, and merging and the least thickness act differently in each; tests compare a few tables",
  ["moonpies/moonpies.py:2546-2595", "moonpies/moonpies.py:696-733", "moonpies/moonpies.py:762-809"])
p("The time of a layer is the age of the craters it names",
  "In a run that ends at the present with whole timesteps (fewer than a million), with distinct plain names, the time of a layer is exactly the age of every crater and basin the layer names. That age lies within the error bars of the age listed for the crater, up to half a timestep. Two craters that a table names are in one layer exactly if they have the same age.",
  "all generators, physical and runnable configurations and data with distinct plain names, numbers of timesteps, seeds, cold traps and craters",
  "ages are drawn, rounded and then matched with the nearest model time, and tests compare times with ages for a few seeds",
  ["moonpies/moonpies.py:2546-2595", "moonpies/moonpies.py:762-809", "moonpies/moonpies.py:1934-1955"])
p("A table starts at the age of its cold trap",
  "In a run that ends at the present with whole timesteps (fewer than a million), with distinct plain names, the mark of the formation age stands exactly at the age of the cold trap, or at the first time of the run if the cold trap is older. The table names exactly the craters and basins that leave more ejecta than the least thickness shown, whose age is between one timestep and the start of the run and, with strat_after_age, not greater than the age of the cold trap; equal ages count as after. On the shipped files with the default ejecta scaling these are the craters and basins listed for the cold trap with ages in that range.",
  "all generators, physical and runnable configurations and data with distinct plain names, numbers of timesteps, seeds, cold traps and craters",
  "the cut uses a relative tolerance and the nearest model time; that it comes down to comparing ages is a statement about all ages",
  ["moonpies/moonpies.py:2546-2595", "moonpies/moonpies.py:762-809", "moonpies/moonpies.py:1934-1955"])
p("Cold traps in reach of each other",
  "In a run that ends at the present with whole timesteps (fewer than a million) and strat_after_age, with distinct plain names, no cold trap is named in its own table, and along a chain of cold traps, each named in the table of the next, ages do not decrease. Cold traps on a closed chain all have one age, and in the table of each the layer that names another of them has the time of the mark of the formation age. On the shipped files with the default ejecta scaling, of two cold traps in reach of each other (such as Haworth and Shoemaker) with ages among the times of the run, one is named in the table of the other exactly if it is not older, and both are exactly if they have one age.",
  "all generators, physical and runnable configurations and data with distinct plain names, numbers of timesteps, seeds and chains of cold traps of any length",
  "which of two cold traps is older depends on the drawn ages, and a chain may pass through any number of cold traps",
  ["moonpies/moonpies.py:2546-2595", "moonpies/moonpies.py:762-809"])
p("The craters a table names depend only on ages",
  "Take any two runs on the shipped files with the default ejecta scaling, strat_after_age and the same whole timesteps (fewer than a million), whatever their seeds, generators and other settings. If crater and cold trap have the same ages in both runs, the table of the cold trap names the crater in one run exactly if it does in the other, and at the same time. A crater named in the first run stays named in the second if there it is not older but at least one timestep old, and the cold trap is not younger.",
  "all pairs of seeds, generators, physical and runnable configurations, cold traps and craters",
  "comparing tables of two runs tests two seeds; that ice, volcanism, gardening and sedimentation never decide which craters are named is a statement about all settings",
  ["moonpies/moonpies.py:2546-2595", "moonpies/moonpies.py:762-809", "moonpies/moonpies.py:2598-2650"])
with open('/verif/properties.jsonl','w') as f:
    for q in P: f.write(json.dumps(q)+"\n")
print(len(P))
for q in P: print(q['id'], q['title'])
