{
 "claims": [
  {
   "property": "C01",
   "status": "proved",
   "theorems": [
    "MoonPIES.C01_garden_only_loses"
   ],
   "note": "Any monotone rounding; includes absence of index errors."
  },
  {
   "property": "C02",
   "status": "proved",
   "theorems": [
    "MoonPIES.C02_garden_frame",
    "MoonPIES.C02_garden_before_start",
    "MoonPIES.C02_garden_no_depth"
   ],
   "note": "Frame, t = -1 and depth <= 0."
  },
  {
   "property": "C03",
   "status": "proved",
   "theorems": [
    "MoonPIES.C03_ejecta_shields",
    "MoonPIES.C03_thick_ejecta_shields"
   ],
   "note": "Exact bound in exact arithmetic; complete shielding by one thick layer for any rounding."
  },
  {
   "property": "C04",
   "status": "proved",
   "theorems": [
    "MoonPIES.C04_garden_rule",
    "MoonPIES.C04_garden_rule_unique"
   ],
   "note": "Existence and uniqueness against an independent rule."
  },
  {
   "property": "C05",
   "status": "partial",
   "theorems": [
    "MoonPIES.C05_refuted_thin_layers",
    "MoonPIES.C05_refuted",
    "MoonPIES.C05_removed_partial"
   ],
   "note": "Refuted: n layers of thickness depth lose n*depth. Partial: per-layer budget bound on the total."
  },
  {
   "property": "C06",
   "status": "proved",
   "theorems": [
    "MoonPIES.C06_garden_monotone"
   ],
   "note": "Monotone in ice, ejecta, depth and efficiency."
  },
  {
   "property": "C07",
   "status": "proved",
   "theorems": [
    "MoonPIES.C07_cannon_amount",
    "MoonPIES.C07_cannon_youngest_first"
   ],
   "note": "Exact amount and youngest-first order."
  },
  {
   "property": "C08",
   "status": "partial",
   "theorems": [
    "MoonPIES.C08_refuted",
    "MoonPIES.C08_surface_shield_partial"
   ],
   "note": "Refuted (code compares t, not layer, with the erosion base). Partial: a shield at the surface layer protects everything."
  },
  {
   "property": "C09",
   "status": "proved",
   "theorems": [
    "MoonPIES.C09_run_only_loses"
   ],
   "note": "Whole time loop, any number of traps, any rounding, no exceptions."
  },
  {
   "property": "C10",
   "status": "proved",
   "theorems": [
    "MoonPIES.C10_causality",
    "MoonPIES.C10_future_untouched"
   ],
   "note": "Two-run causality plus untouched future layers."
  },
  {
   "property": "C11",
   "status": "proved",
   "theorems": [
    "MoonPIES.C11_trap_alone",
    "MoonPIES.C11_order_irrelevant"
   ],
   "note": "Each trap equals its solo run; order irrelevant."
  },
  {
   "property": "C12",
   "status": "proved",
   "theorems": [
    "MoonPIES.C12_never_regained",
    "MoonPIES.C12_empty_stays_empty"
   ],
   "note": "Layerwise non-increasing in time; empty stays empty."
  },
  {
   "property": "C13",
   "status": "proved",
   "theorems": [
    "MoonPIES.C13_first_step",
    "MoonPIES.C13_no_sedimentation"
   ],
   "note": "First step independent of sedimentation; zero depth equals gardening only."
  },
  {
   "property": "C14",
   "status": "proved",
   "theorems": [
    "MoonPIES.C14_binning_conserves"
   ],
   "note": "Sum over bins equals sum of in-range non-NaN values."
  },
  {
   "property": "C15",
   "status": "proved",
   "theorems": [
    "MoonPIES.C15_nearest_placement",
    "MoonPIES.C15_exact_age"
   ],
   "note": "Nearest index, first on ties; exact ages land on their own step."
  },
  {
   "property": "C16",
   "status": "proved",
   "theorems": [
    "MoonPIES.C16_order_sum",
    "MoonPIES.C16_maximum",
    "MoonPIES.C16_order_max"
   ],
   "note": "Permutation invariance for sum and max; max is attained."
  },
  {
   "property": "C17",
   "status": "proved",
   "theorems": [
    "MoonPIES.C17_source_labels"
   ],
   "note": "Names must be non-empty and not end in a comma."
  },
  {
   "property": "C18",
   "status": "partial",
   "theorems": [
    "MoonPIES.C18_refuted",
    "MoonPIES.C18_labelled_layers_partial"
   ],
   "note": "Documented zeroing of thin layers is not done by the code: refuted. What holds: labelled layers exceed the threshold."
  },
  {
   "property": "C19",
   "status": "partial",
   "theorems": [
    "MoonPIES.C19_refuted",
    "MoonPIES.C19_uniform_partial",
    "MoonPIES.C19_correct_iff_partial",
    "MoonPIES.C19_shape_partial"
   ],
   "note": "Uniform grid only when timeend = 0; general claim refuted, exact characterization for dividing steps."
  },
  {
   "property": "C20",
   "status": "proved",
   "theorems": [
    "MoonPIES.C20_merge_spec",
    "MoonPIES.C20_merge_unique",
    "MoonPIES.C20_totals",
    "MoonPIES.C20_labels",
    "MoonPIES.C20_idempotent"
   ],
   "note": "Unique merged table, totals, labels, idempotence."
  },
  {
   "property": "C21",
   "status": "proved",
   "theorems": [
    "MoonPIES.C21_accounting"
   ],
   "note": "Exact accounting; no positivity needed."
  },
  {
   "property": "C22",
   "status": "proved",
   "theorems": [
    "MoonPIES.C22_depth_cumulative",
    "MoonPIES.C22_depth_monotone"
   ],
   "note": "Depth recursion exact; monotone for non-negative columns."
  },
  {
   "property": "C23",
   "status": "proved",
   "theorems": [
    "MoonPIES.C23_icepct"
   ],
   "note": "Percentage within 5e-5 of the exact ratio."
  },
  {
   "property": "C24",
   "status": "proved",
   "theorems": [
    "MoonPIES.C24_fails_iff",
    "MoonPIES.C24_time_order"
   ],
   "note": "Sources may not be named 'Formation age'."
  },
  {
   "property": "C25",
   "status": "partial",
   "theorems": [
    "MoonPIES.C25_repeatable_refuted",
    "MoonPIES.C25_no_empty_items_refuted",
    "MoonPIES.C25_names_partial",
    "MoonPIES.C25_length_partial"
   ],
   "note": "Set order and empty items make the full claim false; content proved for every set order."
  },
  {
   "property": "C26",
   "status": "proved",
   "theorems": [
    "MoonPIES.C26_neighbour",
    "MoonPIES.C26_integer",
    "MoonPIES.C26_up_iff",
    "MoonPIES.C26_unbiased"
   ],
   "note": "Expectation as an interval integral over the uniform draw."
  },
  {
   "property": "C27",
   "status": "proved",
   "theorems": [
    "MoonPIES.C27_nearest_multiple",
    "MoonPIES.C27_best",
    "MoonPIES.C27_fixes_multiples",
    "MoonPIES.C27_monotone"
   ],
   "note": "Half-even rounding; nearest multiple."
  },
  {
   "property": "C28",
   "status": "proved",
   "theorems": [
    "MoonPIES.C28_randomized_ages",
    "MoonPIES.C28_zero_bars_raise",
    "MoonPIES.C28_raises_iff"
   ],
   "note": "For every draw within scipy's truncation range; zero error bars raise."
  },
  {
   "property": "C29",
   "status": "partial",
   "theorems": [
    "MoonPIES.C29_refuted",
    "MoonPIES.C29_disjoint_partial",
    "MoonPIES.C29_icy_column_partial"
   ],
   "note": "False with comets off; proved with comets on or fractions summing to at most 1."
  },
  {
   "property": "C30",
   "status": "partial",
   "theorems": [
    "MoonPIES.C30_asteroid",
    "MoonPIES.C30_comet_refuted",
    "MoonPIES.C30_comet_partial",
    "MoonPIES.C30_comet_always_exceeds_partial"
   ],
   "note": "Asteroid part exact; comet limits wrong in the code (refuted), exact support proved."
  },
  {
   "property": "C31",
   "status": "proved",
   "theorems": [
    "MoonPIES.C31_weights",
    "MoonPIES.C31_distribution",
    "MoonPIES.C31_samples"
   ],
   "note": "Non-negative weights with positive sum."
  },
  {
   "property": "C32",
   "status": "partial",
   "theorems": [
    "MoonPIES.C32_continuous_partial",
    "MoonPIES.C32_stochastic_refuted",
    "MoonPIES.C32_stochastic_partial",
    "MoonPIES.C32_micrometeorites_partial"
   ],
   "note": "Continuous regimes conserve; stochastic regimes apply the fraction twice (refuted, exact expectation given); micrometeorites all cometary."
  },
  {
   "property": "C33",
   "status": "partial",
   "theorems": [
    "MoonPIES.C33_cannon_refuted",
    "MoonPIES.C33_moonpies_refuted",
    "MoonPIES.C33_range_partial",
    "MoonPIES.C33_decreasing_partial"
   ],
   "note": "Bounds hold from slightly above 10 km/s; refuted just above 10 km/s where the factor exceeds 1."
  },
  {
   "property": "C34",
   "status": "proved",
   "theorems": [
    "MoonPIES.C34_gc_dist_eq_angle",
    "MoonPIES.C34_symmetric",
    "MoonPIES.C34_range",
    "MoonPIES.C34_zero_iff",
    "MoonPIES.C34_zero_self",
    "MoonPIES.C34_periodic",
    "MoonPIES.C34_rotation",
    "MoonPIES.C34_triangle"
   ],
   "note": "Real-number model; latitude range as documented."
  },
  {
   "property": "C35",
   "status": "proved",
   "theorems": [
    "MoonPIES.C35_latlon_round_trip",
    "MoonPIES.C35_south_pole",
    "MoonPIES.C35_north_mirrored",
    "MoonPIES.C35_xy_round_trip",
    "MoonPIES.C35_off_disk"
   ],
   "note": "Round trip in the southern hemisphere; northern latitudes come back mirrored."
  },
  {
   "property": "C36",
   "status": "partial",
   "theorems": [
    "MoonPIES.C36_laws",
    "MoonPIES.C36_basin_law",
    "MoonPIES.C36_missing_distance",
    "MoonPIES.C36_positive_partial",
    "MoonPIES.C36_decreasing",
    "MoonPIES.C36_rim_thickness",
    "MoonPIES.C36_centre",
    "MoonPIES.C36_transition_gap",
    "MoonPIES.C36_positive_refuted",
    "MoonPIES.C36_basin_positive_partial",
    "MoonPIES.C36_basin_inside_zero"
   ],
   "note": "Positive except at radius exactly simple2complex/2, and inside basins. C36_laws and C36_basin_law give the thickness in each regime."
  },
  {
   "property": "C37",
   "status": "partial",
   "theorems": [
    "MoonPIES.C37_coldtrap_dists",
    "MoonPIES.C37_duplicate_name_raises",
    "MoonPIES.C37_unknown_trap_gets_nothing",
    "MoonPIES.C37_trap_without_centroid",
    "MoonPIES.C37_grid_rule_partial",
    "MoonPIES.C37_grid_agrees_inside_partial",
    "MoonPIES.C37_grid_negative_threshold",
    "MoonPIES.C37_grid_same_rule_refuted"
   ],
   "note": "Negative thresholds are ignored by the grid version; see the refuted theorem. A cold trap without centroid coordinates gets no ejecta (C37_trap_without_centroid)."
  },
  {
   "property": "C38",
   "status": "proved",
   "theorems": [
    "MoonPIES.C38_transient_positive",
    "MoonPIES.C38_transient_lt_final",
    "MoonPIES.C38_inverts_collapse",
    "MoonPIES.C38_transient_strictMono_general",
    "MoonPIES.C38_transient_default",
    "MoonPIES.C38_hardcoded_transition"
   ],
   "note": "All inputs; the transient diameter inverts the collapse law of its size class; the hard-coded transition is recorded."
  },
  {
   "property": "C39",
   "status": "proved",
   "theorems": [
    "MoonPIES.C39_collins_inverse",
    "MoonPIES.C39_johnson_inverse",
    "MoonPIES.C39_collins_unique",
    "MoonPIES.C39_johnson_unique",
    "MoonPIES.C39_collins_mono",
    "MoonPIES.C39_johnson_mono",
    "MoonPIES.C39_unknown_regime",
    "MoonPIES.C39_diam2len_johnson_short"
   ],
   "note": "Both scaling laws inverted; the transient/final mismatch is recorded."
  },
  {
   "property": "C40",
   "status": "proved",
   "theorems": [
    "MoonPIES.C40_law_increasing",
    "MoonPIES.C40_prieur",
    "MoonPIES.C40_speed",
    "MoonPIES.C40_empty_raises"
   ],
   "note": "Interpolated inverse of the law of Prieur et al., stated in dimensionless form: range, monotone, never too short, less than one table step too long, end values outside the table, dependence on speed and density; empty table raises."
  },
  {
   "property": "C41",
   "status": "partial",
   "theorems": [
    "MoonPIES.C41_sfd_probabilities",
    "MoonPIES.C41_crater_sfd_partial",
    "MoonPIES.C41_step_too_large",
    "MoonPIES.C41_refuted"
   ],
   "note": "Normalised, decreasing and following the power law; refuted when the step exceeds the range."
  },
  {
   "property": "C42",
   "status": "proved",
   "theorems": [
    "MoonPIES.C42_flux_scaling",
    "MoonPIES.C42_ivanov",
    "MoonPIES.C42_non_increasing",
    "MoonPIES.C42_micrometeorites",
    "MoonPIES.C42_micrometeorites_nonneg",
    "MoonPIES.C42_brown_nonneg",
    "MoonPIES.C42_small_impactors",
    "MoonPIES.C42_small_craters",
    "MoonPIES.C42_neukum_decreasing",
    "MoonPIES.C42_small_craters_default"
   ],
   "note": "Flux, micrometeorite, small impactor and small crater ice; the size-frequency polynomial decreases from 10 m to 300 km."
  },
  {
   "property": "C43",
   "status": "proved",
   "theorems": [
    "MoonPIES.C43_mass_balance",
    "MoonPIES.C43_additive",
    "MoonPIES.C43_unknown_species"
   ],
   "note": ""
  },
  {
   "property": "C44",
   "status": "proved",
   "theorems": [
    "MoonPIES.C44_ice_cols",
    "MoonPIES.C44_missing_trap_raises",
    "MoonPIES.C44_zero_hop_raises"
   ],
   "note": "All four switch combinations and both error branches."
  },
  {
   "property": "C45",
   "status": "proved",
   "theorems": [
    "MoonPIES.C45_steps",
    "MoonPIES.C45_total",
    "MoonPIES.C45_total_disjoint",
    "MoonPIES.C45_total_years"
   ],
   "note": "Head mode with its two epochs; totals over the run."
  },
  {
   "property": "C46",
   "status": "partial",
   "theorems": [
    "MoonPIES.C46_refuted",
    "MoonPIES.C46_mode",
    "MoonPIES.C46_loop_partial",
    "MoonPIES.C46_body_partial"
   ],
   "note": "NK mode always raises (refuted); the loop itself is described in full, and the body of the function on a grid of model times (C46_body_partial): where each tabulated mass goes and what the sum is."
  },
  {
   "property": "C47",
   "status": "proved",
   "theorems": [
    "MoonPIES.C47_off",
    "MoonPIES.C47_unknown_mode",
    "MoonPIES.C47_constant_sun",
    "MoonPIES.C47_faint_sun",
    "MoonPIES.C47_reader_order",
    "MoonPIES.C47_brightening",
    "MoonPIES.C47_thickness"
   ],
   "note": "All modes and error branches."
  },
  {
   "property": "C48",
   "status": "proved",
   "theorems": [
    "MoonPIES.C48_costello",
    "MoonPIES.C48_column"
   ],
   "note": "Costello power law and its use in every column."
  },
  {
   "property": "C49",
   "status": "proved",
   "theorems": [
    "MoonPIES.C49_petro",
    "MoonPIES.C49_increasing",
    "MoonPIES.C49_missing"
   ],
   "note": "Ratio formula, increase with distance, missing distances."
  },
  {
   "property": "C50",
   "status": "partial",
   "theorems": [
    "MoonPIES.C50_melt_frac_partial",
    "MoonPIES.C50_out_of_range",
    "MoonPIES.C50_refuted",
    "MoonPIES.C50_ignores_label_refuted"
   ],
   "note": "In-range queries stay within the surrounding table entries; position-based interpolation makes the value depend on other queries (refuted)."
  },
  {
   "property": "C51",
   "status": "proved",
   "theorems": [
    "MoonPIES.C51_off",
    "MoonPIES.C51_depth"
   ],
   "note": "C51_off, C51_depth: depth is the landing ejecta times the largest mixing ratio; the melt fraction lies between the table entries around the ratio and the temperature of the landing craters, which is the crater, warm basin or cold basin value (Spec.EjectaTemperature)."
  },
  {
   "property": "C52",
   "status": "proved",
   "theorems": [
    "MoonPIES.C52_zero",
    "MoonPIES.C52_bound",
    "MoonPIES.C52_increasing",
    "MoonPIES.C52_flight_equation"
   ],
   "note": "Flight equation of the ballistic trajectory."
  },
  {
   "property": "C53",
   "status": "partial",
   "theorems": [
    "MoonPIES.C53_explicit",
    "MoonPIES.C53_mode_pole",
    "MoonPIES.C53_mode_defaults_partial",
    "MoonPIES.C53_pole_defaults",
    "MoonPIES.C53_impact_speed",
    "MoonPIES.C53_impact_speed_refuted"
   ],
   "note": "Each given option keeps its value; each omitted one takes its mode/pole default, except impact_speed_mean, whose mode default is never applied (refuted with a witness)."
  },
  {
   "property": "C54",
   "status": "proved",
   "theorems": [
    "MoonPIES.C54_types",
    "MoonPIES.C54_unchanged",
    "MoonPIES.C54_rejected",
    "MoonPIES.C54_none_rejected",
    "MoonPIES.C54_unknown",
    "MoonPIES.C54_string_switch",
    "MoonPIES.C54_tuple",
    "MoonPIES.C54_integer",
    "MoonPIES.C54_float"
   ],
   "note": "Over a universe of Python scalars, tuples, lists and dicts; int()/float() parsing is a parameter."
  },
  {
   "property": "C55",
   "status": "proved",
   "theorems": [
    "MoonPIES.C55_kept",
    "MoonPIES.C55_drawn",
    "MoonPIES.C55_nonzero",
    "MoonPIES.C55_infinite"
   ],
   "note": "Includes infinite seeds (OverflowError) and non-numeric seeds."
  },
  {
   "property": "C56",
   "status": "partial",
   "theorems": [
    "MoonPIES.C56_locations_partial",
    "MoonPIES.C56_round_trip_partial",
    "MoonPIES.C56_refuted"
   ],
   "note": "Refuted for out_path: once the directory exists a slash is added. Partial: every field but the clock and out_path round-trips (paths included), out_path up to trailing slashes, exactly if the directory is absent."
  },
  {
   "property": "C57",
   "status": "partial",
   "theorems": [
    "MoonPIES.C57_seed_dir",
    "MoonPIES.C57_distinct_partial",
    "MoonPIES.C57_refuted"
   ],
   "note": "Refuted: a path containing both seeds' digits is shared. Partial: distinct whenever the seed digits are not hidden elsewhere in the path."
  },
  {
   "property": "C58",
   "status": "proved",
   "theorems": [
    "MoonPIES.C58_comet",
    "MoonPIES.C58_locations"
   ],
   "note": "Existence, comet values, all other fields; locations up to trailing slashes of out_path. That cfg is not modified is immediate in the functional model."
  },
  {
   "property": "C59",
   "status": "partial",
   "theorems": [
    "MoonPIES.C59_seed",
    "MoonPIES.C59_resume",
    "MoonPIES.C59_interrupted",
    "MoonPIES.C59_refuted"
   ],
   "note": "Seed override (non-zero seed) and skip/run-once proved; the interrupted-run claim is refuted with a run killed after its first change."
  },
  {
   "property": "C60",
   "status": "partial",
   "theorems": [
    "MoonPIES.C60_off",
    "MoonPIES.C60_frame",
    "MoonPIES.C60_saved",
    "MoonPIES.C60_refuted"
   ],
   "note": "Proved when the default names are used and do not exist in the current directory; refuted when ej_columns.csv is there (makedirs of the empty path). npy outputs only in the model, not in the exactness claim."
  },
  {
   "property": "C61",
   "status": "proved",
   "theorems": [
    "MoonPIES.C61_transparent",
    "MoonPIES.C61_bounded",
    "MoonPIES.C61_recent",
    "MoonPIES.C61_hit",
    "MoonPIES.C61_unhashable"
   ],
   "note": "Generic bounded LRU cache; entries kept are exactly the most recent ones, and the body is evaluated exactly when the key is not kept. Cached objects are taken as immutable (no caller writes to them)."
  },
  {
   "property": "C62",
   "status": "partial",
   "theorems": [
    "MoonPIES.C62_flag_ignored",
    "MoonPIES.C62_refuted"
   ],
   "note": "The flag is ignored: C62_flag_ignored for every run, C62_refuted for a concrete run where the claim fails."
  },
  {
   "property": "C63",
   "status": "proved",
   "theorems": [
    "MoonPIES.C63_meaning",
    "MoonPIES.C63_fraction",
    "MoonPIES.C63_returns",
    "MoonPIES.C63_stays_melted"
   ],
   "note": "For every heat step, size, placement and mixing ratio >= 0: a result is the share of target cells that were ever at melting temperature after a step, in [0,1], within max_iter steps; with the code's heat step and 45-510 K it always returns."
  },
  {
   "property": "C64",
   "status": "proved",
   "theorems": [
    "MoonPIES.C64_ring",
    "MoonPIES.C64_one_step",
    "MoonPIES.C64_maximum_principle",
    "MoonPIES.C64_equilibrium"
   ],
   "note": "Step is the explicit scheme on a ring; coefficient proved to be in (0,1/2] over 45-510 K (heat capacity polynomial bound), so every interval inside the range is kept, for any number of steps."
  },
  {
   "property": "C65",
   "status": "partial",
   "theorems": [
    "MoonPIES.C65_pool_eq_sequential",
    "MoonPIES.C65_errors_agree",
    "MoonPIES.C65_first_error",
    "MoonPIES.C65_refuted_empty"
   ],
   "note": "Holds for every non-empty list of mixing ratios, pool size and completion order, errors included. Refuted for the empty list: np.stack raises in the pool path."
  },
  {
   "property": "C66",
   "status": "proved",
   "theorems": [
    "MoonPIES.C66_cold",
    "MoonPIES.C66_pure_ejecta",
    "MoonPIES.C66_warm_target_not_counted"
   ],
   "note": "Both claims proved for every configuration; also recorded: a target already above melt_t is not counted when the loop does not run."
  },
  {
   "property": "C67",
   "status": "partial",
   "theorems": [
    "MoonPIES.C67_youngest_partial",
    "MoonPIES.C67_refuted_rectangular",
    "MoonPIES.C67_refuted_strip"
   ],
   "note": "Square grids: every pixel gets the age of the youngest crater covering it (partial: negative thresholds and non-square grids excluded). Refuted when nx != ny: the mask and grid shapes do not broadcast and numpy raises, and a one-row grid silently broadcasts to (n, n)."
  },
  {
   "property": "C68",
   "status": "partial",
   "theorems": [
    "MoonPIES.C68_symmetric_axes",
    "MoonPIES.C68_axes_cover",
    "MoonPIES.C68_zero_step",
    "MoonPIES.C68_refuted_rectangular",
    "MoonPIES.C68_dist_grid_partial"
   ],
   "note": "Axes are symmetric and cover the region when the step divides it; zero step raises. On square grids each pixel's distance is the great-circle distance (partial); refuted for rectangular grids."
  },
  {
   "property": "C69",
   "status": "partial",
   "theorems": [
    "MoonPIES.C69_kept_partial",
    "MoonPIES.C69_no_thin_partial",
    "MoonPIES.C69_fails_iff",
    "MoonPIES.C69_refuted",
    "MoonPIES.C69_changes_argument"
   ],
   "note": "False as stated: list.extend returns None, so layers renamed Other lose their label and the second merge drops them (C69_refuted). Proved instead: exactly the ice and ejecta of the thick layers not already called Other survive; nothing is lost when there are no such layers; KeyError exactly when all layers are thin or Other; the caller's table is modified."
  },
  {
   "property": "C70",
   "status": "proved",
   "theorems": [
    "MoonPIES.C70_exact",
    "MoonPIES.C70_file",
    "MoonPIES.C70_reads",
    "MoonPIES.C70_run_tables",
    "MoonPIES.C70_needs_formation_row"
   ],
   "note": "Exact: the aggregate is the ice above d for non-overlapping layers, hence monotone, within [0, total], equal to total from maxdepth on. Bridged to the tables of make_strat_col; without strat_after_age reading fails with TypeError."
  },
  {
   "property": "C71",
   "status": "proved",
   "theorems": [
    "MoonPIES.C71_non_basin_ice",
    "MoonPIES.C71_polar_ice"
   ],
   "note": "For a fixed crater table and generator state the ice of everything but basins and the final generator state do not depend on the flag."
  },
  {
   "property": "C72",
   "status": "proved",
   "theorems": [
    "MoonPIES.C72_tables",
    "MoonPIES.C72_returns",
    "MoonPIES.C72_traps_listed"
   ],
   "note": "Complete runs: C72_returns (no stage fails on usable inputs), C72_tables (non-negative, bounded by delivery, cumulative depth), C72_traps_listed."
  },
  {
   "property": "C73",
   "status": "proved",
   "theorems": [
    "MoonPIES.C73_run_monotone"
   ],
   "note": "For both ways of gardening; needs the ice and ejecta of the first run not negative and the fractions lost within 0 and 1."
  },
  {
   "property": "C74",
   "status": "proved",
   "theorems": [
    "MoonPIES.C74_default_returns",
    "MoonPIES.C74_north_never_returns"
   ],
   "note": "Shipped files transcribed into Model/Shipped by tools/shipped.py."
  },
  {
   "property": "C75",
   "status": "proved",
   "theorems": [
    "MoonPIES.C75_run_ejecta"
   ],
   "note": "Ejecta of a trap at a time is the sum over all rows dated to that time; thickness per row by RowEjecta."
  },
  {
   "property": "C76",
   "status": "partial",
   "theorems": [
    "MoonPIES.C76_asteroids_partial",
    "MoonPIES.C76_refuted"
   ],
   "note": "The asteroid half holds for every generator. The comet half is refuted with the default configuration and shipped data: with the switch off no basin is icy, so no basin speeds are drawn and the later draws shift."
  },
  {
   "property": "C77",
   "status": "proved",
   "theorems": [
    "MoonPIES.C77_table",
    "MoonPIES.C77_labels"
   ],
   "note": "The table is characterised completely except depth and percentage, which C22 and C23 give. C77_labels assumes no ejecta source is called like one of the three fixed labels."
  },
  {
   "property": "C78",
   "status": "proved",
   "theorems": [
    "MoonPIES.C78_run_table",
    "MoonPIES.C78_run_labels"
   ],
   "note": "Assumes names in the crater and basin files are not empty and do not end in a comma; the shipped files meet this."
  },
  {
   "property": "C79",
   "status": "proved",
   "theorems": [
    "MoonPIES.C79_accepted",
    "MoonPIES.C79_numbers",
    "MoonPIES.C79_containers",
    "MoonPIES.C79_round_trip",
    "MoonPIES.C79_comet",
    "MoonPIES.C79_seed_only",
    "MoonPIES.C79_standard",
    "MoonPIES.C79_command_line",
    "MoonPIES.C79_north_fails"
   ],
   "note": "Proved. C79_accepted: arguments that fit (Spec.GoodArgs) are accepted in every environment and kept. C79_standard: both modes and both poles decode to the numbers used by the run model (RunCfg). C79_round_trip, C79_comet and C79_seed_only tie to_dict/from_dict, get_comet_cfg and the command line seed to the run. C79_command_line composes with C74; C79_north_fails records that northern runs do not complete. A field holding infinity or NaN has no run configuration (RunCfg.ofVals gives none)."
  },
  {
   "property": "C80",
   "status": "partial",
   "theorems": [
    "MoonPIES.C80_file",
    "MoonPIES.C80_tables_partial",
    "MoonPIES.C80_mixes_rows",
    "MoonPIES.C80_stale"
   ],
   "note": "False in general: a file with a row older than its formation row mixes rows (C80_mixes_rows), and failed or earlier cold traps leave old pickles in the tables (C80_stale). Partial: exact condition per file (C80_file), and the full claim for files written by make_strat_col with strat_after_age, aggregated into a fresh directory (C80_tables_partial). Directory names within a trap and depth texts are assumed distinct; float32 rounding is not modelled."
  },
  {
   "property": "C81",
   "status": "partial",
   "theorems": [
    "MoonPIES.C81_exact_partial",
    "MoonPIES.C81_swap_fails",
    "MoonPIES.C81_short_fails"
   ],
   "note": "False when a new name is a later run name (C81_swap_fails) or there are too few new names (C81_short_fails). Partial: for distinct run names and lists of equal length, the exact condition under which every row gets its new name (C81_exact_partial)."
  },
  {
   "property": "C82",
   "status": "partial",
   "theorems": [
    "MoonPIES.C82_file",
    "MoonPIES.C82_edits_partial",
    "MoonPIES.C82_unchanged",
    "MoonPIES.C82_pole_refuted"
   ],
   "note": "C82_file: one fixed dictionary is written in every environment with an absolute working directory; keys, types and values are characterised. C82_edits_partial: reading the file with any changes equals the constructor on the changes alone, errors included, unless the pole is changed to the north without its five dependent options. C82_unchanged: the untouched file with any seed equals no file. C82_pole_refuted: changing only the pole keeps the south-pole values, in every environment."
  },
  {
   "property": "C83",
   "status": "proved",
   "theorems": [
    "MoonPIES.C83_cells",
    "MoonPIES.C83_generated",
    "MoonPIES.C83_script",
    "MoonPIES.C83_run",
    "MoonPIES.C83_shipped_labels"
   ],
   "note": "Every cell is the mean (std) over the seeds for any melt function, CPU count and completion order; ranges, cold and pure ejecta; the script's saved table (six digits) has increasing labels and completes every default run. Exact arithmetic: the float rounding of int(n/(1+mr)) is not modelled. An empty list of ratios in a pool raises (C65)."
  },
  {
   "property": "C84",
   "status": "partial",
   "theorems": [
    "MoonPIES.C84_ranges",
    "MoonPIES.C84_missing",
    "MoonPIES.C84_drawn",
    "MoonPIES.C84_colours_partial",
    "MoonPIES.C84_colours_refuted",
    "MoonPIES.C84_legend",
    "MoonPIES.C84_axes"
   ],
   "note": "False as stated: the colour of a layer is the ice percentage of the deepest layer with the same hatch, so two ice layers of different content look alike (C84_colours_refuted, for every hash, sort and crater list). Proved: the ranges, largest source and hatch of each layer, that the hatch seen is the layer's own, exactly which percentage gives the colour, that the legend does not change it (C84_drawn), own colour when no deeper layer shares the hatch (C84_colours_partial), the error for unlisted sources, the legend order and the layout of axes."
  },
  {
   "property": "C85",
   "status": "partial",
   "theorems": [
    "MoonPIES.C85_row_ejecta_partial",
    "MoonPIES.C85_run_tables_partial",
    "MoonPIES.C85_radius_refuted"
   ],
   "note": "Proved for the default lunar radius, transition diameters no smaller than those in the transient laws, impact angles below 90 degrees and basins no wider than the Moon. For other radii refuted by C85_radius_refuted: distances always use 1737.4 km."
  },
  {
   "property": "C86",
   "status": "partial",
   "theorems": [
    "MoonPIES.C86_column_partial",
    "MoonPIES.C86_own_layer",
    "MoonPIES.C86_no_formation",
    "MoonPIES.C86_thin_refuted",
    "MoonPIES.C86_run_picture_partial"
   ],
   "note": "Refuted for layers thinner than min_thick, which show the layer below or nothing; the partial theorems give exactly what is seen at each depth, the failure condition and the complete-run version."
  },
  {
   "property": "C87",
   "status": "partial",
   "theorems": [
    "MoonPIES.C87_hex",
    "MoonPIES.C87_short_refuted",
    "MoonPIES.C87_digits",
    "MoonPIES.C87_gradient",
    "MoonPIES.C87_ordered",
    "MoonPIES.C87_default",
    "MoonPIES.C87_locs",
    "MoonPIES.C87_locs_refused"
   ],
   "note": "Refuted for three-digit colours (C87_short_refuted); the rest of the claim is proved for all lists of six-digit colours."
  },
  {
   "property": "C88",
   "status": "proved",
   "theorems": [
    "MoonPIES.C88_exact",
    "MoonPIES.C88_sensible",
    "MoonPIES.C88_close",
    "MoonPIES.C88_doubles"
   ],
   "note": "For every rounding with the stated properties; the properties are proved for binary floats. The group sum of pandas is a parameter with an error bound. C88_close assumes that no model time lies between the exact and the rounded age limit."
  },
  {
   "property": "C89",
   "status": "partial",
   "theorems": [
    "MoonPIES.C89_returns",
    "MoonPIES.C89_modules_partial",
    "MoonPIES.C89_seeds",
    "MoonPIES.C89_refuted"
   ],
   "note": "The figure is computed for every nonempty list of seeds; at each time impactor plus basin ice is the mean of the runs' asteroid ice and of the comet ice from the same generator state, gardening and ballistic sedimentation are those of the runs. The claim about the total is false: volcanic and solar wind ice are counted twice (defect 33), refuted with the default configuration and the shipped data. Seeds of 0 make the figure depend on a number drawn outside the seeded generator."
  },
  {
   "property": "C90",
   "status": "partial",
   "theorems": [
    "MoonPIES.C90_eras",
    "MoonPIES.C90_bars",
    "MoonPIES.C90_layout",
    "MoonPIES.C90_total",
    "MoonPIES.C90_shade_partial",
    "MoonPIES.C90_refuted"
   ],
   "note": "Eras, bars, error bars, layout and additivity are proved for all tables. The shading labelled Max is the mean (defect 34), refuted with the default configuration."
  },
  {
   "property": "C91",
   "status": "proved",
   "theorems": [
    "MoonPIES.C91_default",
    "MoonPIES.C91_given",
    "MoonPIES.C91_kept",
    "MoonPIES.C91_inputs"
   ],
   "note": "Paths are lists of names in the spec (Spec/Where.lean), so the theorems do not use the path functions of the model. C91_default: no out_path. C91_given: out_path without the seed, last directory numeric or not. C91_kept: out_path ending with the seed. C91_inputs: data files. FilesIn lists output directory, figures and every *_out file. A directory that already exists keeps its closing slash, hence SameDir. Related: C57_seed_dir."
  },
  {
   "property": "C92",
   "status": "partial",
   "theorems": [
    "MoonPIES.C92_panels",
    "MoonPIES.C92_centre",
    "MoonPIES.C92_energy_falls",
    "MoonPIES.C92_depth_partial",
    "MoonPIES.C92_shipped",
    "MoonPIES.C92_depth_refuted",
    "MoonPIES.C92_marker",
    "MoonPIES.C92_style"
   ],
   "note": "Full statement false: the depth panel uses the mixing ratio at one diameter for all distances (C92_depth_refuted; C92_depth_partial says where it shows too much and too little). Panels of speed, thickness and energy, their shape in the shipped figure, the line styles and the marker are proved. Round trip of the configuration through to_dict for the Earth constants is taken as given."
  },
  {
   "property": "C93",
   "status": "partial",
   "theorems": [
    "MoonPIES.C93_file",
    "MoonPIES.C93_named",
    "MoonPIES.C93_absolute",
    "MoonPIES.C93_show",
    "MoonPIES.C93_versions_partial",
    "MoonPIES.C93_figures_partial",
    "MoonPIES.C93_versions_refuted",
    "MoonPIES.C93_figures_refuted",
    "MoonPIES.C93_format_refuted",
    "MoonPIES.C93_default",
    "MoonPIES.C93_label_refuted"
   ],
   "note": "Full claim refuted (finding 36): a path that mentions the version as text gets no label, so versions or figures can share a file, and a name without extension loses its format. Proved: exact file for every directory, name and version; every saved path contains its version; distinct files when the path does not mention the versions; with defaults all 21 files are distinct and labelled. pathlib as in CPython up to 3.13 is trusted."
  },
  {
   "property": "C94",
   "status": "partial",
   "theorems": [
    "MoonPIES.C94_found",
    "MoonPIES.C94_none",
    "MoonPIES.C94_latest_partial",
    "MoonPIES.C94_latest_refuted"
   ],
   "note": "Full claim refuted (finding 37): the listing is not sorted. Proved: the directory found holds the layers and is the last such in the listing (iff); error iff none; the latest when the listing is sorted by name."
  },
  {
   "property": "C95",
   "status": "partial",
   "theorems": [
    "MoonPIES.C95_read",
    "MoonPIES.C95_second",
    "MoonPIES.C95_unique",
    "MoonPIES.C95_config",
    "MoonPIES.C95_saved",
    "MoonPIES.C95_writable",
    "MoonPIES.C95_nonfinite",
    "MoonPIES.C95_saved_refuted"
   ],
   "note": "Text of a configuration file: every spelling (layout, comments, quotes, escapes, pieces, number formats, trailing commas) is read as the dictionary it spells, and composing with the constructor gives the configuration back. Assumed: pprint prints a spelling of the dictionary. False for infinite or NaN parameters, which are accepted but print as words that cannot be read (C95_saved_refuted, C95_nonfinite)."
  },
  {
   "property": "C96",
   "status": "partial",
   "theorems": [
    "MoonPIES.C96_thickness_partial",
    "MoonPIES.C96_refuted_rectangular",
    "MoonPIES.C96_figure_partial",
    "MoonPIES.C96_figure_refuted"
   ],
   "note": "Square grids: one slice per crater with its own thickness law at each point, zero elsewhere; the figure shows the sum. False for rectangular grids (ValueError) and for a figure of a configuration that is not the default (C96_figure_refuted)."
  },
  {
   "property": "C97",
   "status": "proved",
   "theorems": [
    "MoonPIES.C97_times",
    "MoonPIES.C97_dating",
    "MoonPIES.C97_order",
    "MoonPIES.C97_ages",
    "MoonPIES.C97_ages_exact",
    "MoonPIES.C97_head",
    "MoonPIES.C97_strat",
    "MoonPIES.C97_cut",
    "MoonPIES.C97_shipped",
    "MoonPIES.C97_tolerance_needed"
   ],
   "note": "Rounded times are modelled beside the exact ones (Model/TimeFl); numpy compares a float32 array with a Python number in float32, with a float64 array in float64, both covered by the error bound u."
  },
  {
   "property": "C98",
   "status": "proved",
   "theorems": [
    "MoonPIES.C98_polar_ice",
    "MoonPIES.C98_run"
   ],
   "note": "Every draw of asteroids, comets and basins, the mean sources, the solar wind and the cold trap shares are pinned, for every lawful generator. The chance that a drawn crater is wet includes the share of the kind a second time (C32)."
  },
  {
   "property": "C99",
   "status": "partial",
   "theorems": [
    "MoonPIES.C99_slices",
    "MoonPIES.C99_single",
    "MoonPIES.C99_even",
    "MoonPIES.C99_totals",
    "MoonPIES.C99_default",
    "MoonPIES.C99_bins_refuted",
    "MoonPIES.C99_shade_refuted"
   ],
   "note": "C99_slices, C99_even, C99_totals and C99_default hold for all tables. Refuted: the argument bins is ignored (C99_bins_refuted) and the shading labelled as maximum is the mean (C99_shade_refuted)."
  },
  {
   "property": "C100",
   "status": "partial",
   "theorems": [
    "MoonPIES.C100_quantile",
    "MoonPIES.C100_box",
    "MoonPIES.C100_arrows_partial",
    "MoonPIES.C100_p99_refuted",
    "MoonPIES.C100_exceeds",
    "MoonPIES.C100_thresh_partial",
    "MoonPIES.C100_thresh_refuted",
    "MoonPIES.C100_violin_partial",
    "MoonPIES.C100_violin_refuted"
   ],
   "note": "Boxes and exceedances proved in full. Refuted: the arrow labelled p99 is at the 95th percentile, the threshold is 5% only for two depths, violin lines leave out runs below 1 m."
  },
  {
   "property": "C101",
   "status": "partial",
   "theorems": [
    "MoonPIES.C101_drawn",
    "MoonPIES.C101_generator",
    "MoonPIES.C101_reproducible_partial",
    "MoonPIES.C101_reproducible_refuted",
    "MoonPIES.C101_seed_refuted"
   ],
   "note": "Table described from its draws for every argument; reproducible with a seed or a generator. Refuted: without rng the configured seed has no effect; a seed is not the generator with this seed."
  },
  {
   "property": "C102",
   "status": "partial",
   "theorems": [
    "MoonPIES.C102_moving_average",
    "MoonPIES.C102_moving_average_even",
    "MoonPIES.C102_ends_refuted",
    "MoonPIES.C102_seeds_ignored",
    "MoonPIES.C102_figure"
   ],
   "note": "Figure described in full for all inputs. Refuted: the moving average is too low at both ends; C102_seeds_ignored shows that the seeds of the runs have no effect."
  },
  {
   "property": "C103",
   "status": "partial",
   "theorems": [
    "MoonPIES.C103_cells",
    "MoonPIES.C103_nearest_partial",
    "MoonPIES.C103_marks",
    "MoonPIES.C103_nearest_refuted"
   ],
   "note": "Shown as drawn: each tabulated value has a cell left of its temperature and below its ejecta fraction (C103_cells); the bars are the least and greatest mixed fractions (C103_marks). That the colour is the nearest tabulated value holds in the quarter of a cell next to the tabulated point only and is refuted for the shipped table elsewhere (C103_nearest_refuted)."
  },
  {
   "property": "C104",
   "status": "partial",
   "theorems": [
    "MoonPIES.C104_upper",
    "MoonPIES.C104_lower",
    "MoonPIES.C104_counted_partial",
    "MoonPIES.C104_shipped",
    "MoonPIES.C104_counted_refuted",
    "MoonPIES.C104_lower_refuted",
    "MoonPIES.C104_seed_refuted",
    "MoonPIES.C104_bins"
   ],
   "note": "What both panels count is proved for all lawful generators (C104_upper, C104_lower). All runs are counted if the error bars are between 1.595 and 4.195 Ga, so for every shipped crater but Haworth (C104_shipped). Refuted: Haworth may be left out (C104_counted_refuted), the lower panel leaves the error bars as it is centred on ages already drawn (C104_lower_refuted), and seed 0 is random (C104_seed_refuted)."
  },
  {
   "property": "C105",
   "status": "partial",
   "theorems": [
    "MoonPIES.C105_figure",
    "MoonPIES.C105_missing",
    "MoonPIES.C105_traps",
    "MoonPIES.C105_lats",
    "MoonPIES.C105_lats_refuted",
    "MoonPIES.C105_visible"
   ],
   "note": "All points, both lines and the error branch; the latitudes are hard-coded and one differs from the crater list by 0.2 degrees, proved as C105_lats_refuted."
  },
  {
   "property": "C106",
   "status": "partial",
   "theorems": [
    "MoonPIES.C106_curves",
    "MoonPIES.C106_fit_partial",
    "MoonPIES.C106_fit_refuted",
    "MoonPIES.C106_negligible",
    "MoonPIES.C106_falls"
   ],
   "note": "Fit proved within 20 % up to 45 km/s; at 60 km/s the law is above 100 times the datum shown, proved as C106_fit_refuted."
  },
  {
   "property": "C107",
   "status": "partial",
   "theorems": [
    "MoonPIES.C107_asteroid",
    "MoonPIES.C107_comet",
    "MoonPIES.C107_asteroid_draws",
    "MoonPIES.C107_comet_draws",
    "MoonPIES.C107_shown_refuted"
   ],
   "note": "Distribution laws and the law of the drawn speeds proved; that the figure shows the whole distribution is false, proved as C107_shown_refuted."
  },
  {
   "property": "C108",
   "status": "partial",
   "theorems": [
    "MoonPIES.C108_gardening_partial",
    "MoonPIES.C108_shielded",
    "MoonPIES.C108_first_refuted",
    "MoonPIES.C108_thin_refuted"
   ],
   "note": "The code and the reference of the test suite give the same column after the first timestep when there is at least as much ice as is eroded, and when shielded. At the first timestep and with less ice they differ, which is proved with witnesses."
  },
  {
   "property": "C109",
   "status": "proved",
   "theorems": [
    "MoonPIES.C109_micro",
    "MoonPIES.C109_brown",
    "MoonPIES.C109_small_impactors",
    "MoonPIES.C109_simple_craters",
    "MoonPIES.C109_kept",
    "MoonPIES.C109_large_craters",
    "MoonPIES.C109_thickness",
    "MoonPIES.C109_volcanic"
   ],
   "note": "Reference formulas with literal constants against the model in cannon mode, for all times, masses, speeds and seeds. The production function is the one of C41 (Neukum); large craters take the impactor lengths of the model."
  },
  {
   "property": "C110",
   "status": "proved",
   "theorems": [
    "MoonPIES.C110_column",
    "MoonPIES.C110_run",
    "MoonPIES.C110_cannon"
   ],
   "note": "Exact column of every cold trap at the end of a run without Costello gardening and ballistic sedimentation; for the cannon defaults and the shipped files also that the run returns."
  },
  {
   "property": "C111",
   "status": "partial",
   "theorems": [
    "MoonPIES.C111_simple_straight",
    "MoonPIES.C111_complex_refuted",
    "MoonPIES.C111_overlap",
    "MoonPIES.C111_counted_twice",
    "MoonPIES.C111_proposal",
    "MoonPIES.C111_units_refuted",
    "MoonPIES.C111_lines",
    "MoonPIES.C111_basins"
   ],
   "note": "Lines and marks are the code's values, and the line of large simple craters is its law. That complex craters are shown by their law, that regimes do not overlap and that the axis is in kilometres are false, with proofs of where; the proposed regimes do not overlap."
  },
  {
   "property": "C112",
   "status": "proved",
   "theorems": [
    "MoonPIES.C112_reach",
    "MoonPIES.C112_run"
   ],
   "note": "Reaches is stated with angles between vectors and the coordinates of the shipped files; the list of 49 crater and 59 basin pairs is checked by evaluating cosines in rationals with proved error bounds. C112_run carries it to every table a run can draw."
  },
  {
   "property": "C113",
   "status": "proved",
   "theorems": [
    "MoonPIES.C113_thickness",
    "MoonPIES.C113_labels"
   ],
   "note": "Needs C112 and lower bounds for the thickness of complex craters and of basins within five radii (Lemmas/BasinThick). Holds for every generator; the default configuration is an instance for every seed."
  },
  {
   "property": "C114",
   "status": "proved",
   "theorems": [
    "MoonPIES.C114_figure",
    "MoonPIES.C114_no_nectaris",
    "MoonPIES.C114_stars",
    "MoonPIES.C114_bar_random"
   ],
   "note": "Uses C112 and C113 for the stars. C114_figure holds for every draw; C114_no_nectaris covers the KeyError; C114_bar_random shows that a bar may miss the listed age (Wiechert J)."
  },
  {
   "property": "C115",
   "status": "proved",
   "theorems": [
    "MoonPIES.C115_gentler",
    "MoonPIES.C115_tables_only",
    "MoonPIES.C115_no_sedimentation",
    "MoonPIES.C115_no_solar_wind",
    "MoonPIES.C115_wetter_comets"
   ],
   "note": "Whole runs, any seed; the draws agree because no compared option reaches the generator."
  },
  {
   "property": "C116",
   "status": "proved",
   "theorems": [
    "MoonPIES.C116_asteroids",
    "MoonPIES.C116_comets",
    "MoonPIES.C116_retained",
    "MoonPIES.C116_micrometeorites",
    "MoonPIES.C116_dry"
   ],
   "note": "Exact scaling for every generator; no condition on the parameters."
  },
  {
   "property": "C117",
   "status": "proved",
   "theorems": [
    "MoonPIES.C117_layers",
    "MoonPIES.C117_sample",
    "MoonPIES.C117_fewer",
    "MoonPIES.C117_one_run"
   ],
   "note": "C117_layers: what a row shows; C117_sample and C117_fewer: which rows are drawn; C117_one_run: with two runs of equal length only the first is drawn, a defect of the sampling"
  },
  {
   "property": "C118",
   "status": "proved",
   "theorems": [
    "MoonPIES.C118_no_amundsen",
    "MoonPIES.C118_points",
    "MoonPIES.C118_vlines",
    "MoonPIES.C118_marks",
    "MoonPIES.C118_lines_at",
    "MoonPIES.C118_first_row",
    "MoonPIES.C118_empty",
    "MoonPIES.C118_wrong_trap"
   ],
   "note": "Every configuration with the default ejecta parameters and some of the default cold traps; the Ries points of the upper panel are data only."
  },
  {
   "property": "C119",
   "status": "proved",
   "theorems": [
    "MoonPIES.C119_markers",
    "MoonPIES.C119_shown",
    "MoonPIES.C119_deeper",
    "MoonPIES.C119_larger"
   ],
   "note": "Default transitions, gravity, radius and mixing ratio. The thickness of basins is that of C36_basin_law."
  },
  {
   "property": "C120",
   "status": "partial",
   "theorems": [
    "MoonPIES.C120_columns",
    "MoonPIES.C120_fails",
    "MoonPIES.C120_titles",
    "MoonPIES.C120_percentages",
    "MoonPIES.C120_seed_letters",
    "MoonPIES.C120_bsed_letters",
    "MoonPIES.C120_limits",
    "MoonPIES.C120_scale_partial",
    "MoonPIES.C120_scale_refuted"
   ],
   "note": "The claim of one scale is refuted: the limit of a row is the depth reached so far, so a deeper later run has a coarser scale (C120_scale_refuted); C120_scale_partial says exactly when there is one scale. Letters of strat_cols_seeds are right exactly with three cold traps. Legend layout is not modelled."
  },
  {
   "property": "C121",
   "status": "proved",
   "theorems": [
    "MoonPIES.C121_ejecta",
    "MoonPIES.C121_modes",
    "MoonPIES.C121_delivered"
   ],
   "note": "Two runs compared: same seed, times, traps, ejecta parameters and crater lists give equal ejecta columns, whatever the other options and the order of rows of equal age (C121_ejecta); instance for the two modes with the shipped files (C121_modes); crater table and delivered ice unchanged by loss, ejecta and table options (C121_delivered)."
  },
  {
   "property": "C122",
   "status": "partial",
   "theorems": [
    "MoonPIES.C122_best",
    "MoonPIES.C122_params_partial",
    "MoonPIES.C122_radii_refuted",
    "MoonPIES.C122_curve"
   ],
   "note": "Fit of degree 2 proved to be the unique closest quadratic (C122_best), curves right (C122_curve). The claim that the unit of distance is the crater radius is false: the notebook divides km by m (C122_radii_refuted); the defaults are right to four digits in thousandths of radii (C122_params_partial)."
  },
  {
   "property": "C123",
   "status": "partial",
   "theorems": [
    "MoonPIES.C123_package",
    "MoonPIES.C123_planar",
    "MoonPIES.C123_quoted",
    "MoonPIES.C123_printed_partial",
    "MoonPIES.C123_printed_refuted",
    "MoonPIES.C123_energy_refuted"
   ],
   "note": "Speeds: C123_package, C123_planar, C123_quoted. Printed examples are at other distances than meant (C123_printed_partial, C123_printed_refuted); energies pair speed and thickness of different distances (C123_energy_refuted)."
  },
  {
   "property": "C124",
   "status": "partial",
   "theorems": [
    "MoonPIES.C124_other_files",
    "MoonPIES.C124_other_files_refuted",
    "MoonPIES.C124_figures",
    "MoonPIES.C124_table",
    "MoonPIES.C124_table_refuted",
    "MoonPIES.C124_latitude",
    "MoonPIES.C124_box",
    "MoonPIES.C124_empty",
    "MoonPIES.C124_bounds"
   ],
   "note": "Full statement refuted: all twelve rows of stat_df are labelled with another crater (C124_table, C124_table_refuted), and files of runs with another list of cold traps are read by position (C124_other_files, C124_other_files_refuted); the figures are right for the default cold traps (C124_figures, C124_latitude, C124_box, C124_bounds, C124_empty)."
  },
  {
   "property": "C125",
   "status": "partial",
   "theorems": [
    "MoonPIES.C125_grid",
    "MoonPIES.C125_lonlat",
    "MoonPIES.C125_xy_partial",
    "MoonPIES.C125_xy_refuted",
    "MoonPIES.C125_axes_refuted",
    "MoonPIES.C125_melt",
    "MoonPIES.C125_craters"
   ],
   "note": "Full statement refuted for the x,y file (energy of the point mirrored at the antidiagonal, C125_xy_partial, C125_xy_refuted) and the vertical axis (sign, C125_axes_refuted); the map, the unit, the longitude/latitude file, the crater selection and the melted depth are proved."
  },
  {
   "property": "C126",
   "status": "partial",
   "theorems": [
    "MoonPIES.C126_keys",
    "MoonPIES.C126_doc",
    "MoonPIES.C126_nk",
    "MoonPIES.C126_sensitivity",
    "MoonPIES.C126_acceptance",
    "MoonPIES.C126_values",
    "MoonPIES.C126_test_refuted"
   ],
   "note": "The dictionary returned and the values of the acceptance run are proved for all generators and seeds. The documentation example, both sensitivity tests and the acceptance test as written raise: they expect three values, an item 1, or a volcanic mode that cannot run."
  },
  {
   "property": "C127",
   "status": "proved",
   "theorems": [
    "MoonPIES.C127_columns",
    "MoonPIES.C127_tables"
   ],
   "note": "Homogeneity of the column update under every positive unit factor and every rounding that commutes with it, exceptions included; tables equivariant in length and time."
  },
  {
   "property": "C128",
   "status": "proved",
   "theorems": [
    "MoonPIES.C128_columns",
    "MoonPIES.C128_tables"
   ],
   "note": "Exact arithmetic, both column modes. The table theorem has the hypothesis that the inserted time does not become the Formation age row."
  },
  {
   "property": "C129",
   "status": "partial",
   "theorems": [
    "MoonPIES.C129_setup",
    "MoonPIES.C129_ejecta",
    "MoonPIES.C129_run_partial",
    "MoonPIES.C129_refuted"
   ],
   "note": "Proved for what a trap starts with and for its ejecta, and for complete runs without ballistic sedimentation. The full claim is refuted: melt fractions are interpolated by row position on a table holding the mixing ratios of all traps."
  },
  {
   "property": "C130",
   "status": "proved",
   "theorems": [
    "MoonPIES.C130_setup",
    "MoonPIES.C130_order",
    "MoonPIES.C130_returns"
   ],
   "note": "Complete runs, every permutation, sedimentation on or off."
  },
  {
   "property": "C131",
   "status": "partial",
   "theorems": [
    "MoonPIES.C131_youngest",
    "MoonPIES.C131_bottom",
    "MoonPIES.C131_top_refuted",
    "MoonPIES.C131_layout_refuted",
    "MoonPIES.C131_files_refuted",
    "MoonPIES.C131_opens"
   ],
   "note": "Depth of the bottom of the youngest ice layer proved; that it is the depth of the ice, and that the script works on present output files, refuted."
  },
  {
   "property": "C132",
   "status": "partial",
   "theorems": [
    "MoonPIES.C132_curves",
    "MoonPIES.C132_columns",
    "MoonPIES.C132_empty",
    "MoonPIES.C132_quits",
    "MoonPIES.C132_found",
    "MoonPIES.C132_files_refuted"
   ],
   "note": "Curves and axis proved for any files found; that default runs save files it finds is refuted."
  },
  {
   "property": "C133",
   "status": "partial",
   "theorems": [
    "MoonPIES.C133_setup",
    "MoonPIES.C133_ties",
    "MoonPIES.C133_basins_refuted"
   ],
   "note": "Proved when basin ages are distinct or basin ice is off; false for tied basins with basin ice (C133_basins_refuted). Covers ice and ejecta columns, not the order of labels."
  },
  {
   "property": "C134",
   "status": "partial",
   "theorems": [
    "MoonPIES.C134_binds",
    "MoonPIES.C134_figures_partial",
    "MoonPIES.C134_supplement_refuted",
    "MoonPIES.C134_unknown",
    "MoonPIES.C134_names",
    "MoonPIES.C134_missing_refuted"
   ],
   "note": "Figures S5 to S8 of the supplement notebook pass fsave to functions without that parameter (TypeError), and nine names used by older scripts are not in moonpies.py (AttributeError): refuted for these. All other calls bind for all values."
  },
  {
   "property": "C135",
   "status": "partial",
   "theorems": [
    "MoonPIES.C135_shown",
    "MoonPIES.C135_monotone",
    "MoonPIES.C135_digits_refuted",
    "MoonPIES.C135_written",
    "MoonPIES.C135_fig7",
    "MoonPIES.C135_fig8"
   ],
   "note": "Columns, blanks, error cases and rounding bounds proved. The nearest one-decimal text from 10 % on is refuted: 12.746 % is rounded twice to 12.8 %."
  },
  {
   "property": "C136",
   "status": "partial",
   "theorems": [
    "MoonPIES.C136_drawn",
    "MoonPIES.C136_mean",
    "MoonPIES.C136_share_refuted",
    "MoonPIES.C136_laws",
    "MoonPIES.C136_shipped_refuted"
   ],
   "note": "The mean formula holds for the code as it is. Refuted: that the mean uses the share of the kind once; it enters in the count and again in the chance of being wet (see C32), so 5 % of the ice of comets is delivered in the mean. Independence and the laws of the draws are trusted."
  },
  {
   "property": "C137",
   "status": "partial",
   "theorems": [
    "MoonPIES.C137_chance",
    "MoonPIES.C137_wet",
    "MoonPIES.C137_bias",
    "MoonPIES.C137_neighbour_partial",
    "MoonPIES.C137_neighbour_refuted",
    "MoonPIES.C137_exclusive",
    "MoonPIES.C137_steps",
    "MoonPIES.C137_sizes_partial",
    "MoonPIES.C137_shipped",
    "MoonPIES.C137_sizes_refuted"
   ],
   "note": "Two statements are refuted with double-precision witnesses; the _partial theorems give the conditions under which they hold."
  },
  {
   "property": "C138",
   "status": "partial",
   "theorems": [
    "MoonPIES.C138_looks",
    "MoonPIES.C138_default_partial",
    "MoonPIES.C138_given_refuted",
    "MoonPIES.C138_home",
    "MoonPIES.C138_readme_refuted",
    "MoonPIES.C138_shared",
    "MoonPIES.C138_only",
    "MoonPIES.C138_quickstart",
    "MoonPIES.C138_names_refuted"
   ],
   "note": "Proved: where plot_stratigraphy looks for every run, found iff run name = last directory of out_path; refuted for given out_path, for the README example, and for the documented file names; home directories; shared directories; quickstart configuration read for every rounding and environment."
  },
  {
   "property": "C139",
   "status": "partial",
   "theorems": [
    "MoonPIES.C139_run_from",
    "MoonPIES.C139_no_trace_partial",
    "MoonPIES.C139_crater",
    "MoonPIES.C139_all",
    "MoonPIES.C139_warmth_refuted",
    "MoonPIES.C139_shipped",
    "MoonPIES.C139_idle"
   ],
   "note": "Full for craters and for the shipped files. In general partial: a basin whose ejecta temperature occurs nowhere else shifts the interpolation of melt fractions (C139_warmth_refuted)."
  },
  {
   "property": "C140",
   "status": "proved",
   "theorems": [
    "MoonPIES.C140_moved",
    "MoonPIES.C140_moves",
    "MoonPIES.C140_longitudes",
    "MoonPIES.C140_symmetric"
   ],
   "note": "Proved for every distance-preserving move and for the four families named."
  },
  {
   "property": "C141",
   "status": "proved",
   "theorems": [
    "MoonPIES.C141_needs",
    "MoonPIES.C141_choices"
   ],
   "note": "Requirements read off the configuration and files, proved necessary for every run that completes; proved sufficient for the shipped files and default parameters."
  },
  {
   "property": "C142",
   "status": "proved",
   "theorems": [
    "MoonPIES.C142_column",
    "MoonPIES.C142_resume",
    "MoonPIES.C142_order",
    "MoonPIES.C142_order_matters",
    "MoonPIES.C142_run"
   ],
   "note": "The update loop over arrays proved equal to an independent pile of layers grown event by event, for columns and for whole runs."
  },
  {
   "property": "C143",
   "status": "proved",
   "theorems": [
    "MoonPIES.C143_delivered",
    "MoonPIES.C143_run",
    "MoonPIES.C143_solar",
    "MoonPIES.C143_solar_depends"
   ],
   "note": "The factor may be negative; only zero is excluded. Runs with solar wind are covered by the scaling of its ice, not by an equality of runs, which fails."
  },
  {
   "property": "C144",
   "status": "proved",
   "theorems": [
    "MoonPIES.C144_garden",
    "MoonPIES.C144_erode",
    "MoonPIES.C144_reference",
    "MoonPIES.C144_blind"
   ],
   "note": "Floating point is exact here; only storing into integer arrays rounds."
  },
  {
   "property": "C145",
   "status": "partial",
   "theorems": [
    "MoonPIES.C145_tests_refuted",
    "MoonPIES.C145_bound",
    "MoonPIES.C145_more",
    "MoonPIES.C145_same"
   ],
   "note": "The full claim, that the code meets its test, is refuted; the relation between code and expected rule is proved for all columns."
  },
  {
   "property": "C146",
   "status": "partial",
   "theorems": [
    "MoonPIES.C146_run",
    "MoonPIES.C146_comets",
    "MoonPIES.C146_off_refuted"
   ],
   "note": "Full for everything but comets. Of comets: settings are immaterial between runs that complete; that they could also not stop a run is refuted (comet ice is computed before its switch is read)."
  },
  {
   "property": "C147",
   "status": "proved",
   "theorems": [
    "MoonPIES.C147_layer",
    "MoonPIES.C147_kept",
    "MoonPIES.C147_lost",
    "MoonPIES.C147_run",
    "MoonPIES.C147_safe"
   ],
   "note": "Proved of the pile of events and of complete runs."
  },
  {
   "property": "C148",
   "status": "proved",
   "theorems": [
    "MoonPIES.C148_area",
    "MoonPIES.C148_ctype",
    "MoonPIES.C148_magma",
    "MoonPIES.C148_brown",
    "MoonPIES.C148_effcy",
    "MoonPIES.C148_hop",
    "MoonPIES.C148_hop_off"
   ],
   "note": "Five trades and the overall hop efficiency, each as equality of whole runs for every non-zero factor. Over the reals: in floats the products round differently."
  },
  {
   "property": "C149",
   "status": "proved",
   "theorems": [
    "MoonPIES.C149_true",
    "MoonPIES.C149_sum",
    "MoonPIES.C149_micrometeorites",
    "MoonPIES.C149_small_impactors",
    "MoonPIES.C149_small_craters",
    "MoonPIES.C149_craters",
    "MoonPIES.C149_raises",
    "MoonPIES.C149_over",
    "MoonPIES.C149_finer",
    "MoonPIES.C149_limit",
    "MoonPIES.C149_shipped"
   ],
   "note": "Exact total over the timesteps, strict growth with the timestep, limit, and the excess for the default times."
  },
  {
   "property": "C150",
   "status": "proved",
   "theorems": [
    "MoonPIES.C150_total",
    "MoonPIES.C150_thin",
    "MoonPIES.C150_vanishes",
    "MoonPIES.C150_cannon",
    "MoonPIES.C150_run",
    "MoonPIES.C150_run_thin",
    "MoonPIES.C150_depths"
   ],
   "note": "Bound by surpluses for piles and whole runs, the limit of short timesteps, and the contrast with Cannon et al."
  },
  {
   "property": "C151",
   "status": "proved",
   "theorems": [
    "MoonPIES.C151_protects",
    "MoonPIES.C151_run",
    "MoonPIES.C151_shipped",
    "MoonPIES.C151_sedimentation"
   ],
   "note": "Whole runs with ballistic_sed = False, results of the table with any subset of the rows that are neither cold traps nor icy basins; existence of the smaller run is proved, not assumed. The hypothesis that ejecta thicknesses are non-negative is C85, discharged in C151_run."
  },
  {
   "property": "C152",
   "status": "proved",
   "theorems": [
    "MoonPIES.C152_lipschitz",
    "MoonPIES.C152_deeper",
    "MoonPIES.C152_attained",
    "MoonPIES.C152_cliff",
    "MoonPIES.C152_cannon",
    "MoonPIES.C152_run",
    "MoonPIES.C152_shipped"
   ],
   "note": "Gardening amplifies a change of depth or of the layers by at most 2^n - 1 for n layers, and this is reached for every n; the Cannon erosion does not amplify, also over whole runs. The rate comparison for whole runs is stated for a lower rate, which loses nothing as the two runs are interchangeable."
  },
  {
   "property": "C153",
   "status": "proved",
   "theorems": [
    "MoonPIES.C153_garden",
    "MoonPIES.C153_cannon",
    "MoonPIES.C153_steps",
    "MoonPIES.C153_double",
    "MoonPIES.C153_cliff"
   ],
   "note": "Rounded Cannon erosion stays close to exact over all timesteps of a column; one gardening is bounded by 7 (2^n - 1) roundings, and a column of 100 layers shows that doubles can keep almost half of the ice that exact arithmetic removes."
  },
  {
   "property": "C154",
   "status": "partial",
   "theorems": [
    "MoonPIES.C154_column",
    "MoonPIES.C154_costello_refuted",
    "MoonPIES.C154_run_partial"
   ],
   "note": "Proved for the Cannon erosion, for columns and for whole runs; refuted for the gardening of Costello et al. by a family of columns in which 2^n times the additional ice is left."
  },
  {
   "property": "C155",
   "status": "partial",
   "theorems": [
    "MoonPIES.C155_gc",
    "MoonPIES.C155_doubled",
    "MoonPIES.C155_distance_refuted",
    "MoonPIES.C155_raises",
    "MoonPIES.C155_grid_cell",
    "MoonPIES.C155_near",
    "MoonPIES.C155_reaches",
    "MoonPIES.C155_mirror",
    "MoonPIES.C155_inside_refuted",
    "MoonPIES.C155_reaches_refuted",
    "MoonPIES.C155_outside_refuted",
    "MoonPIES.C155_transient",
    "MoonPIES.C155_polar",
    "MoonPIES.C155_nearest"
   ],
   "note": "The grid distances are those from twice the position of the crater and the cells raise on the grids they are given; the selections miss no crater within reach of the grid in the first step, but take northern for southern craters, test each coordinate by itself and drop craters beyond the grid in one coordinate only. The full statement is refuted; distance formula, transient radius, polar grid and nearest point are proved."
  },
  {
   "property": "C156",
   "status": "proved",
   "theorems": [
    "MoonPIES.C156_columns",
    "MoonPIES.C156_tables",
    "MoonPIES.C156_stable",
    "MoonPIES.C156_named_ice",
    "MoonPIES.C156_same_name"
   ],
   "note": "Proved for whole runs: same failures and same ice and ejecta columns for all renamings that keep the cold traps apart, and the same tables but for labels when names are plain and different. Two witnesses show what other names do to the merging of layers."
  },
  {
   "property": "C157",
   "status": "proved",
   "theorems": [
    "MoonPIES.C157_columns",
    "MoonPIES.C157_tables",
    "MoonPIES.C157_hop_table",
    "MoonPIES.C157_same_name"
   ],
   "note": "Whole runs related to their renamed copies through dictionaries with renamed keys."
  },
  {
   "property": "C158",
   "status": "proved",
   "theorems": [
    "MoonPIES.C158_column",
    "MoonPIES.C158_costello",
    "MoonPIES.C158_run"
   ],
   "note": "Convexity of the retained ice in the delivered ice; both directions refuted by example for the other gardening mode, as the statement says."
  },
  {
   "property": "C159",
   "status": "proved",
   "theorems": [
    "MoonPIES.C159_epoch",
    "MoonPIES.C159_head",
    "MoonPIES.C159_head_error",
    "MoonPIES.C159_share",
    "MoonPIES.C159_constant_sun",
    "MoonPIES.C159_faint_sun"
   ],
   "note": "Proved for every timestep that divides the start time."
  },
  {
   "property": "C160",
   "status": "proved",
   "theorems": [
    "MoonPIES.C160_variance"
   ],
   "note": "Proved for independent draws from the laws of C107 and C136."
  },
  {
   "property": "C161",
   "status": "proved",
   "theorems": [
    "MoonPIES.C161_column",
    "MoonPIES.C161_costello",
    "MoonPIES.C161_run"
   ],
   "note": "Independent deliveries for a column; any weights for an ensemble of runs; unbounded amplification for Costello gardening."
  },
  {
   "property": "C162",
   "status": "proved",
   "theorems": [
    "MoonPIES.C162_column",
    "MoonPIES.C162_run",
    "MoonPIES.C162_cannon"
   ],
   "note": "Closed form for columns and runs under Cannon erosion: suffix maxima of the balance."
  },
  {
   "property": "C163",
   "status": "proved",
   "theorems": [
    "MoonPIES.C163_run"
   ],
   "note": "Convexity, monotonicity, Lipschitz bound and the threshold of the rate, for completed runs in this mode."
  },
  {
   "property": "C164",
   "status": "proved",
   "theorems": [
    "MoonPIES.C164_run"
   ],
   "note": "For runs in which is_comet is false, as in every shipped configuration. The three parameters must not be negative."
  },
  {
   "property": "C165",
   "status": "proved",
   "theorems": [
    "MoonPIES.C165_equal",
    "MoonPIES.C165_less"
   ],
   "note": "For columns under erosion alone. The timestep is cut evenly, with the supply spread evenly over its parts."
  },
  {
   "property": "C166",
   "status": "proved",
   "theorems": [
    "MoonPIES.C166_layers",
    "MoonPIES.C166_dry"
   ],
   "note": "The bounds 0.053 m and 0.037 m are rounded. They use the largest luminosity of the whole table, also of the future."
  },
  {
   "property": "C167",
   "status": "proved",
   "theorems": [
    "MoonPIES.C167_run",
    "MoonPIES.C167_deep",
    "MoonPIES.C167_neither"
   ],
   "note": "The comparison needs its condition at every timestep; without it neither model keeps more, which is proved with two columns."
  },
  {
   "property": "C168",
   "status": "proved",
   "theorems": [
    "MoonPIES.C168_depth",
    "MoonPIES.C168_totals",
    "MoonPIES.C168_run",
    "MoonPIES.C168_default"
   ],
   "note": "Exact arithmetic; rounding of depths is C88."
  },
  {
   "property": "C169",
   "status": "proved",
   "theorems": [
    "MoonPIES.C169_steady",
    "MoonPIES.C169_dust",
    "MoonPIES.C169_default"
   ],
   "note": "Fixed and drawn parts of the ice of every cold trap, and what micrometeorites alone bring against the depth of gardening with the shipped configuration."
  },
  {
   "property": "C170",
   "status": "proved",
   "theorems": [
    "MoonPIES.C170_layers",
    "MoonPIES.C170_pile",
    "MoonPIES.C170_run",
    "MoonPIES.C170_run_eroded",
    "MoonPIES.C170_volcanism",
    "MoonPIES.C170_default"
   ],
   "note": "Whole-run theorems for gardening after Costello with or without sedimentation, and for erosion after Cannon without sedimentation; the layer theorems hold for any starting column."
  },
  {
   "property": "C171",
   "status": "proved",
   "theorems": [
    "MoonPIES.C171_matched",
    "MoonPIES.C171_refused"
   ],
   "note": "Stated on characters, independently of tokens and parser; holds for every text that literal_eval accepts."
  },
  {
   "property": "C172",
   "status": "proved",
   "theorems": [
    "MoonPIES.C172_totals",
    "MoonPIES.C172_more_layers",
    "MoonPIES.C172_columns",
    "MoonPIES.C172_run"
   ],
   "note": "Columns and errors for all configurations and data; totals of the tables for physical ones, whose columns have no negative entries."
  },
  {
   "property": "C173",
   "status": "proved",
   "theorems": [
    "MoonPIES.C173_table",
    "MoonPIES.C173_columns",
    "MoonPIES.C173_run"
   ],
   "note": "The implication goes one way: with the switch a run stops with IndexError when no timestep is younger than a cold trap."
  },
  {
   "property": "C174",
   "status": "proved",
   "theorems": [
    "MoonPIES.C174_since",
    "MoonPIES.C174_column",
    "MoonPIES.C174_run",
    "MoonPIES.C174_shackleton"
   ],
   "note": "Ejecta older than the trap are covered by C174_column; for whole runs only volcanism is varied, because craters cannot be changed without changing the draws."
  },
  {
   "property": "C175",
   "status": "proved",
   "theorems": [
    "MoonPIES.C175_columns",
    "MoonPIES.C175_sedimentation",
    "MoonPIES.C175_run",
    "MoonPIES.C175_no_ejecta"
   ],
   "note": "C175_run compares two traps of one completed run; C175_columns is the loop alone; C175_sedimentation is the counterexample with sedimentation on."
  },
  {
   "property": "C176",
   "status": "proved",
   "theorems": [
    "MoonPIES.C176_table",
    "MoonPIES.C176_run",
    "MoonPIES.C176_shipped"
   ],
   "note": "Table bound for every list of timesteps, whole runs, and the shipped files at every seed."
  },
  {
   "property": "C177",
   "status": "proved",
   "theorems": [
    "MoonPIES.C177_run",
    "MoonPIES.C177_shipped"
   ],
   "note": "Full equivalence for whole runs, with uniqueness of the naming layer and exclusion of the trap's own name; for the shipped files in terms of the reach table."
  },
  {
   "property": "C178",
   "status": "proved",
   "theorems": [
    "MoonPIES.C178_table",
    "MoonPIES.C178_run",
    "MoonPIES.C178_shackleton"
   ],
   "note": "Tables, whole runs, and Shackleton at every seed."
  },
  {
   "property": "C179",
   "status": "proved",
   "theorems": [
    "MoonPIES.C179_table",
    "MoonPIES.C179_run",
    "MoonPIES.C179_shipped"
   ],
   "note": "Tables, whole runs, and the shipped files at every seed."
  },
  {
   "property": "C180",
   "status": "proved",
   "theorems": [
    "MoonPIES.C180_table",
    "MoonPIES.C180_run",
    "MoonPIES.C180_shipped"
   ],
   "note": "Tables, whole runs, and the shipped files at every seed."
  },
  {
   "property": "C181",
   "status": "proved",
   "theorems": [
    "MoonPIES.C181_table",
    "MoonPIES.C181_run"
   ],
   "note": "Tables and whole runs."
  },
  {
   "property": "C182",
   "status": "proved",
   "theorems": [
    "MoonPIES.C182_shipped"
   ],
   "note": "All seeds on the shipped files."
  },
  {
   "property": "C183",
   "status": "proved",
   "theorems": [
    "MoonPIES.C183_run"
   ],
   "note": "Whole runs."
  },
  {
   "property": "C184",
   "status": "proved",
   "theorems": [
    "MoonPIES.C184_run"
   ],
   "note": "Whole runs."
  },
  {
   "property": "C185",
   "status": "proved",
   "theorems": [
    "MoonPIES.C185_run",
    "MoonPIES.C185_shipped"
   ],
   "note": "Whole runs, and the shipped files at every seed."
  },
  {
   "property": "C186",
   "status": "proved",
   "theorems": [
    "MoonPIES.C186_run",
    "MoonPIES.C186_shipped"
   ],
   "note": "Chains of cold traps named in each other's tables have ages in order; on the shipped files which of two cold traps in reach of each other is named."
  },
  {
   "property": "C187",
   "status": "proved",
   "theorems": [
    "MoonPIES.C187_shipped"
   ],
   "note": "Two runs with different seeds, generators and settings: which craters a table names, and at what times, depends only on the ages."
  }
 ]
}