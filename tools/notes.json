{
 "C01": "Any monotone rounding; includes absence of index errors.",
 "C02": "Frame, t = -1 and depth <= 0.",
 "C03": "Exact bound in exact arithmetic; complete shielding by one thick layer for any rounding.",
 "C04": "Existence and uniqueness against an independent rule.",
 "C05": "Refuted: n layers of thickness depth lose n*depth. Partial: per-layer budget bound on the total.",
 "C06": "Monotone in ice, ejecta, depth and efficiency.",
 "C07": "Exact amount and youngest-first order.",
 "C08": "Refuted (code compares t, not layer, with the erosion base). Partial: a shield at the surface layer protects everything.",
 "C09": "Whole time loop, any number of traps, any rounding, no exceptions.",
 "C10": "Two-run causality plus untouched future layers.",
 "C100": "Boxes and exceedances proved in full. Refuted: the arrow labelled p99 is at the 95th percentile, the threshold is 5% only for two depths, violin lines leave out runs below 1 m.",
 "C101": "Table described from its draws for every argument; reproducible with a seed or a generator. Refuted: without rng the configured seed has no effect; a seed is not the generator with this seed.",
 "C102": "Figure described in full for all inputs. Refuted: the moving average is too low at both ends; C102_seeds_ignored shows that the seeds of the runs have no effect.",
 "C103": "Shown as drawn: each tabulated value has a cell left of its temperature and below its ejecta fraction (C103_cells); the bars are the least and greatest mixed fractions (C103_marks). That the colour is the nearest tabulated value holds in the quarter of a cell next to the tabulated point only and is refuted for the shipped table elsewhere (C103_nearest_refuted).",
 "C104": "What both panels count is proved for all lawful generators (C104_upper, C104_lower). All runs are counted if the error bars are between 1.595 and 4.195 Ga, so for every shipped crater but Haworth (C104_shipped). Refuted: Haworth may be left out (C104_counted_refuted), the lower panel leaves the error bars as it is centred on ages already drawn (C104_lower_refuted), and seed 0 is random (C104_seed_refuted).",
 "C105": "All points, both lines and the error branch; the latitudes are hard-coded and one differs from the crater list by 0.2 degrees, proved as C105_lats_refuted.",
 "C106": "Fit proved within 20 % up to 45 km/s; at 60 km/s the law is above 100 times the datum shown, proved as C106_fit_refuted.",
 "C107": "Distribution laws and the law of the drawn speeds proved; that the figure shows the whole distribution is false, proved as C107_shown_refuted.",
 "C108": "The code and the reference of the test suite give the same column after the first timestep when there is at least as much ice as is eroded, and when shielded. At the first timestep and with less ice they differ, which is proved with witnesses.",
 "C109": "Reference formulas with literal constants against the model in cannon mode, for all times, masses, speeds and seeds. The production function is the one of C41 (Neukum); large craters take the impactor lengths of the model.",
 "C11": "Each trap equals its solo run; order irrelevant.",
 "C110": "Exact column of every cold trap at the end of a run without Costello gardening and ballistic sedimentation; for the cannon defaults and the shipped files also that the run returns.",
 "C111": "Lines and marks are the code's values, and the line of large simple craters is its law. That complex craters are shown by their law, that regimes do not overlap and that the axis is in kilometres are false, with proofs of where; the proposed regimes do not overlap.",
 "C112": "Reaches is stated with angles between vectors and the coordinates of the shipped files; the list of 49 crater and 59 basin pairs is checked by evaluating cosines in rationals with proved error bounds. C112_run carries it to every table a run can draw.",
 "C113": "Needs C112 and lower bounds for the thickness of complex craters and of basins within five radii (Lemmas/BasinThick). Holds for every generator; the default configuration is an instance for every seed.",
 "C114": "Uses C112 and C113 for the stars. C114_figure holds for every draw; C114_no_nectaris covers the KeyError; C114_bar_random shows that a bar may miss the listed age (Wiechert J).",
 "C115": "Whole runs, any seed; the draws agree because no compared option reaches the generator.",
 "C116": "Exact scaling for every generator; no condition on the parameters.",
 "C117": "C117_layers: what a row shows; C117_sample and C117_fewer: which rows are drawn; C117_one_run: with two runs of equal length only the first is drawn, a defect of the sampling",
 "C118": "Every configuration with the default ejecta parameters and some of the default cold traps; the Ries points of the upper panel are data only.",
 "C119": "Default transitions, gravity, radius and mixing ratio. The thickness of basins is that of C36_basin_law.",
 "C12": "Layerwise non-increasing in time; empty stays empty.",
 "C120": "The claim of one scale is refuted: the limit of a row is the depth reached so far, so a deeper later run has a coarser scale (C120_scale_refuted); C120_scale_partial says exactly when there is one scale. Letters of strat_cols_seeds are right exactly with three cold traps. Legend layout is not modelled.",
 "C121": "Two runs compared: same seed, times, traps, ejecta parameters and crater lists give equal ejecta columns, whatever the other options and the order of rows of equal age (C121_ejecta); instance for the two modes with the shipped files (C121_modes); crater table and delivered ice unchanged by loss, ejecta and table options (C121_delivered).",
 "C122": "Fit of degree 2 proved to be the unique closest quadratic (C122_best), curves right (C122_curve). The claim that the unit of distance is the crater radius is false: the notebook divides km by m (C122_radii_refuted); the defaults are right to four digits in thousandths of radii (C122_params_partial).",
 "C123": "Speeds: C123_package, C123_planar, C123_quoted. Printed examples are at other distances than meant (C123_printed_partial, C123_printed_refuted); energies pair speed and thickness of different distances (C123_energy_refuted).",
 "C124": "Full statement refuted: all twelve rows of stat_df are labelled with another crater (C124_table, C124_table_refuted), and files of runs with another list of cold traps are read by position (C124_other_files, C124_other_files_refuted); the figures are right for the default cold traps (C124_figures, C124_latitude, C124_box, C124_bounds, C124_empty).",
 "C125": "Full statement refuted for the x,y file (energy of the point mirrored at the antidiagonal, C125_xy_partial, C125_xy_refuted) and the vertical axis (sign, C125_axes_refuted); the map, the unit, the longitude/latitude file, the crater selection and the melted depth are proved.",
 "C126": "The dictionary returned and the values of the acceptance run are proved for all generators and seeds. The documentation example, both sensitivity tests and the acceptance test as written raise: they expect three values, an item 1, or a volcanic mode that cannot run.",
 "C127": "Homogeneity of the column update under every positive unit factor and every rounding that commutes with it, exceptions included; tables equivariant in length and time.",
 "C128": "Exact arithmetic, both column modes. The table theorem has the hypothesis that the inserted time does not become the Formation age row.",
 "C129": "Proved for what a trap starts with and for its ejecta, and for complete runs without ballistic sedimentation. The full claim is refuted: melt fractions are interpolated by row position on a table holding the mixing ratios of all traps.",
 "C13": "First step independent of sedimentation; zero depth equals gardening only.",
 "C130": "Complete runs, every permutation, sedimentation on or off.",
 "C131": "Depth of the bottom of the youngest ice layer proved; that it is the depth of the ice, and that the script works on present output files, refuted.",
 "C132": "Curves and axis proved for any files found; that default runs save files it finds is refuted.",
 "C133": "Proved when basin ages are distinct or basin ice is off; false for tied basins with basin ice (C133_basins_refuted). Covers ice and ejecta columns, not the order of labels.",
 "C134": "Figures S5 to S8 of the supplement notebook pass fsave to functions without that parameter (TypeError), and nine names used by older scripts are not in moonpies.py (AttributeError): refuted for these. All other calls bind for all values.",
 "C135": "Columns, blanks, error cases and rounding bounds proved. The nearest one-decimal text from 10 % on is refuted: 12.746 % is rounded twice to 12.8 %.",
 "C136": "The mean formula holds for the code as it is. Refuted: that the mean uses the share of the kind once; it enters in the count and again in the chance of being wet (see C32), so 5 % of the ice of comets is delivered in the mean. Independence and the laws of the draws are trusted.",
 "C137": "Two statements are refuted with double-precision witnesses; the _partial theorems give the conditions under which they hold.",
 "C138": "Proved: where plot_stratigraphy looks for every run, found iff run name = last directory of out_path; refuted for given out_path, for the README example, and for the documented file names; home directories; shared directories; quickstart configuration read for every rounding and environment.",
 "C139": "Full for craters and for the shipped files. In general partial: a basin whose ejecta temperature occurs nowhere else shifts the interpolation of melt fractions (C139_warmth_refuted).",
 "C14": "Sum over bins equals sum of in-range non-NaN values.",
 "C140": "Proved for every distance-preserving move and for the four families named.",
 "C141": "Requirements read off the configuration and files, proved necessary for every run that completes; proved sufficient for the shipped files and default parameters.",
 "C142": "The update loop over arrays proved equal to an independent pile of layers grown event by event, for columns and for whole runs.",
 "C143": "The factor may be negative; only zero is excluded. Runs with solar wind are covered by the scaling of its ice, not by an equality of runs, which fails.",
 "C144": "Floating point is exact here; only storing into integer arrays rounds.",
 "C145": "The full claim, that the code meets its test, is refuted; the relation between code and expected rule is proved for all columns.",
 "C146": "Full for everything but comets. Of comets: settings are immaterial between runs that complete; that they could also not stop a run is refuted (comet ice is computed before its switch is read).",
 "C147": "Proved of the pile of events and of complete runs.",
 "C148": "Five trades and the overall hop efficiency, each as equality of whole runs for every non-zero factor. Over the reals: in floats the products round differently.",
 "C149": "Exact total over the timesteps, strict growth with the timestep, limit, and the excess for the default times.",
 "C15": "Nearest index, first on ties; exact ages land on their own step.",
 "C150": "Bound by surpluses for piles and whole runs, the limit of short timesteps, and the contrast with Cannon et al.",
 "C151": "Whole runs with ballistic_sed = False, results of the table with any subset of the rows that are neither cold traps nor icy basins; existence of the smaller run is proved, not assumed. The hypothesis that ejecta thicknesses are non-negative is C85, discharged in C151_run.",
 "C152": "Gardening amplifies a change of depth or of the layers by at most 2^n - 1 for n layers, and this is reached for every n; the Cannon erosion does not amplify, also over whole runs. The rate comparison for whole runs is stated for a lower rate, which loses nothing as the two runs are interchangeable.",
 "C153": "Rounded Cannon erosion stays close to exact over all timesteps of a column; one gardening is bounded by 7 (2^n - 1) roundings, and a column of 100 layers shows that doubles can keep almost half of the ice that exact arithmetic removes.",
 "C154": "Proved for the Cannon erosion, for columns and for whole runs; refuted for the gardening of Costello et al. by a family of columns in which 2^n times the additional ice is left.",
 "C155": "The grid distances are those from twice the position of the crater and the cells raise on the grids they are given; the selections miss no crater within reach of the grid in the first step, but take northern for southern craters, test each coordinate by itself and drop craters beyond the grid in one coordinate only. The full statement is refuted; distance formula, transient radius, polar grid and nearest point are proved.",
 "C156": "Proved for whole runs: same failures and same ice and ejecta columns for all renamings that keep the cold traps apart, and the same tables but for labels when names are plain and different. Two witnesses show what other names do to the merging of layers.",
 "C157": "Whole runs related to their renamed copies through dictionaries with renamed keys.",
 "C158": "Convexity of the retained ice in the delivered ice; both directions refuted by example for the other gardening mode, as the statement says.",
 "C159": "Proved for every timestep that divides the start time.",
 "C16": "Permutation invariance for sum and max; max is attained.",
 "C160": "Proved for independent draws from the laws of C107 and C136.",
 "C161": "Independent deliveries for a column; any weights for an ensemble of runs; unbounded amplification for Costello gardening.",
 "C162": "Closed form for columns and runs under Cannon erosion: suffix maxima of the balance.",
 "C163": "Convexity, monotonicity, Lipschitz bound and the threshold of the rate, for completed runs in this mode.",
 "C164": "For runs in which is_comet is false, as in every shipped configuration. The three parameters must not be negative.",
 "C165": "For columns under erosion alone. The timestep is cut evenly, with the supply spread evenly over its parts.",
 "C166": "The bounds 0.053 m and 0.037 m are rounded. They use the largest luminosity of the whole table, also of the future.",
 "C167": "The comparison needs its condition at every timestep; without it neither model keeps more, which is proved with two columns.",
 "C168": "Exact arithmetic; rounding of depths is C88.",
 "C169": "Fixed and drawn parts of the ice of every cold trap, and what micrometeorites alone bring against the depth of gardening with the shipped configuration.",
 "C17": "Names must be non-empty and not end in a comma.",
 "C170": "Whole-run theorems for gardening after Costello with or without sedimentation, and for erosion after Cannon without sedimentation; the layer theorems hold for any starting column.",
 "C171": "Stated on characters, independently of tokens and parser; holds for every text that literal_eval accepts.",
 "C172": "Columns and errors for all configurations and data; totals of the tables for physical ones, whose columns have no negative entries.",
 "C173": "The implication goes one way: with the switch a run stops with IndexError when no timestep is younger than a cold trap.",
 "C174": "Ejecta older than the trap are covered by C174_column; for whole runs only volcanism is varied, because craters cannot be changed without changing the draws.",
 "C175": "C175_run compares two traps of one completed run; C175_columns is the loop alone; C175_sedimentation is the counterexample with sedimentation on.",
 "C176": "Table bound for every list of timesteps, whole runs, and the shipped files at every seed.",
 "C177": "Full equivalence for whole runs, with uniqueness of the naming layer and exclusion of the trap's own name; for the shipped files in terms of the reach table.",
 "C178": "Tables, whole runs, and Shackleton at every seed.",
 "C179": "Tables, whole runs, and the shipped files at every seed.",
 "C18": "Documented zeroing of thin layers is not done by the code: refuted. What holds: labelled layers exceed the threshold.",
 "C180": "Tables, whole runs, and the shipped files at every seed.",
 "C181": "Tables and whole runs.",
 "C182": "All seeds on the shipped files.",
 "C183": "Whole runs.",
 "C184": "Whole runs.",
 "C185": "Whole runs, and the shipped files at every seed.",
 "C186": "Chains of cold traps named in each other's tables have ages in order; on the shipped files which of two cold traps in reach of each other is named.",
 "C187": "Two runs with different seeds, generators and settings: which craters a table names, and at what times, depends only on the ages.",
 "C19": "Uniform grid only when timeend = 0; general claim refuted, exact characterization for dividing steps.",
 "C20": "Unique merged table, totals, labels, idempotence.",
 "C21": "Exact accounting; no positivity needed.",
 "C22": "Depth recursion exact; monotone for non-negative columns.",
 "C23": "Percentage within 5e-5 of the exact ratio.",
 "C24": "Sources may not be named 'Formation age'.",
 "C25": "Set order and empty items make the full claim false; content proved for every set order.",
 "C26": "Expectation as an interval integral over the uniform draw.",
 "C27": "Half-even rounding; nearest multiple.",
 "C28": "For every draw within scipy's truncation range; zero error bars raise.",
 "C29": "False with comets off; proved with comets on or fractions summing to at most 1.",
 "C30": "Asteroid part exact; comet limits wrong in the code (refuted), exact support proved.",
 "C31": "Non-negative weights with positive sum.",
 "C32": "Continuous regimes conserve; stochastic regimes apply the fraction twice (refuted, exact expectation given); micrometeorites all cometary.",
 "C33": "Bounds hold from slightly above 10 km/s; refuted just above 10 km/s where the factor exceeds 1.",
 "C34": "Real-number model; latitude range as documented.",
 "C35": "Round trip in the southern hemisphere; northern latitudes come back mirrored.",
 "C36": "Positive except at radius exactly simple2complex/2, and inside basins. C36_laws and C36_basin_law give the thickness in each regime.",
 "C37": "Negative thresholds are ignored by the grid version; see the refuted theorem. A cold trap without centroid coordinates gets no ejecta (C37_trap_without_centroid).",
 "C38": "All inputs; the transient diameter inverts the collapse law of its size class; the hard-coded transition is recorded.",
 "C39": "Both scaling laws inverted; the transient/final mismatch is recorded.",
 "C40": "Interpolated inverse of the law of Prieur et al., stated in dimensionless form: range, monotone, never too short, less than one table step too long, end values outside the table, dependence on speed and density; empty table raises.",
 "C41": "Normalised, decreasing and following the power law; refuted when the step exceeds the range.",
 "C42": "Flux, micrometeorite, small impactor and small crater ice; the size-frequency polynomial decreases from 10 m to 300 km.",
 "C43": "",
 "C44": "All four switch combinations and both error branches.",
 "C45": "Head mode with its two epochs; totals over the run.",
 "C46": "NK mode always raises (refuted); the loop itself is described in full, and the body of the function on a grid of model times (C46_body_partial): where each tabulated mass goes and what the sum is.",
 "C47": "All modes and error branches.",
 "C48": "Costello power law and its use in every column.",
 "C49": "Ratio formula, increase with distance, missing distances.",
 "C50": "In-range queries stay within the surrounding table entries; position-based interpolation makes the value depend on other queries (refuted).",
 "C51": "C51_off, C51_depth: depth is the landing ejecta times the largest mixing ratio; the melt fraction lies between the table entries around the ratio and the temperature of the landing craters, which is the crater, warm basin or cold basin value (Spec.EjectaTemperature).",
 "C52": "Flight equation of the ballistic trajectory.",
 "C53": "Each given option keeps its value; each omitted one takes its mode/pole default, except impact_speed_mean, whose mode default is never applied (refuted with a witness).",
 "C54": "Over a universe of Python scalars, tuples, lists and dicts; int()/float() parsing is a parameter.",
 "C55": "Includes infinite seeds (OverflowError) and non-numeric seeds.",
 "C56": "Refuted for out_path: once the directory exists a slash is added. Partial: every field but the clock and out_path round-trips (paths included), out_path up to trailing slashes, exactly if the directory is absent.",
 "C57": "Refuted: a path containing both seeds' digits is shared. Partial: distinct whenever the seed digits are not hidden elsewhere in the path.",
 "C58": "Existence, comet values, all other fields; locations up to trailing slashes of out_path. That cfg is not modified is immediate in the functional model.",
 "C59": "Seed override (non-zero seed) and skip/run-once proved; the interrupted-run claim is refuted with a run killed after its first change.",
 "C60": "Proved when the default names are used and do not exist in the current directory; refuted when ej_columns.csv is there (makedirs of the empty path). npy outputs only in the model, not in the exactness claim.",
 "C61": "Generic bounded LRU cache; entries kept are exactly the most recent ones, and the body is evaluated exactly when the key is not kept. Cached objects are taken as immutable (no caller writes to them).",
 "C62": "The flag is ignored: C62_flag_ignored for every run, C62_refuted for a concrete run where the claim fails.",
 "C63": "For every heat step, size, placement and mixing ratio >= 0: a result is the share of target cells that were ever at melting temperature after a step, in [0,1], within max_iter steps; with the code's heat step and 45-510 K it always returns.",
 "C64": "Step is the explicit scheme on a ring; coefficient proved to be in (0,1/2] over 45-510 K (heat capacity polynomial bound), so every interval inside the range is kept, for any number of steps.",
 "C65": "Holds for every non-empty list of mixing ratios, pool size and completion order, errors included. Refuted for the empty list: np.stack raises in the pool path.",
 "C66": "Both claims proved for every configuration; also recorded: a target already above melt_t is not counted when the loop does not run.",
 "C67": "Square grids: every pixel gets the age of the youngest crater covering it (partial: negative thresholds and non-square grids excluded). Refuted when nx != ny: the mask and grid shapes do not broadcast and numpy raises, and a one-row grid silently broadcasts to (n, n).",
 "C68": "Axes are symmetric and cover the region when the step divides it; zero step raises. On square grids each pixel's distance is the great-circle distance (partial); refuted for rectangular grids.",
 "C69": "False as stated: list.extend returns None, so layers renamed Other lose their label and the second merge drops them (C69_refuted). Proved instead: exactly the ice and ejecta of the thick layers not already called Other survive; nothing is lost when there are no such layers; KeyError exactly when all layers are thin or Other; the caller's table is modified.",
 "C70": "Exact: the aggregate is the ice above d for non-overlapping layers, hence monotone, within [0, total], equal to total from maxdepth on. Bridged to the tables of make_strat_col; without strat_after_age reading fails with TypeError.",
 "C71": "For a fixed crater table and generator state the ice of everything but basins and the final generator state do not depend on the flag.",
 "C72": "Complete runs: C72_returns (no stage fails on usable inputs), C72_tables (non-negative, bounded by delivery, cumulative depth), C72_traps_listed.",
 "C73": "For both ways of gardening; needs the ice and ejecta of the first run not negative and the fractions lost within 0 and 1.",
 "C74": "Shipped files transcribed into Model/Shipped by tools/shipped.py.",
 "C75": "Ejecta of a trap at a time is the sum over all rows dated to that time; thickness per row by RowEjecta.",
 "C76": "The asteroid half holds for every generator. The comet half is refuted with the default configuration and shipped data: with the switch off no basin is icy, so no basin speeds are drawn and the later draws shift.",
 "C77": "The table is characterised completely except depth and percentage, which C22 and C23 give. C77_labels assumes no ejecta source is called like one of the three fixed labels.",
 "C78": "Assumes names in the crater and basin files are not empty and do not end in a comma; the shipped files meet this.",
 "C79": "Proved. C79_accepted: arguments that fit (Spec.GoodArgs) are accepted in every environment and kept. C79_standard: both modes and both poles decode to the numbers used by the run model (RunCfg). C79_round_trip, C79_comet and C79_seed_only tie to_dict/from_dict, get_comet_cfg and the command line seed to the run. C79_command_line composes with C74; C79_north_fails records that northern runs do not complete. A field holding infinity or NaN has no run configuration (RunCfg.ofVals gives none).",
 "C80": "False in general: a file with a row older than its formation row mixes rows (C80_mixes_rows), and failed or earlier cold traps leave old pickles in the tables (C80_stale). Partial: exact condition per file (C80_file), and the full claim for files written by make_strat_col with strat_after_age, aggregated into a fresh directory (C80_tables_partial). Directory names within a trap and depth texts are assumed distinct; float32 rounding is not modelled.",
 "C81": "False when a new name is a later run name (C81_swap_fails) or there are too few new names (C81_short_fails). Partial: for distinct run names and lists of equal length, the exact condition under which every row gets its new name (C81_exact_partial).",
 "C82": "C82_file: one fixed dictionary is written in every environment with an absolute working directory; keys, types and values are characterised. C82_edits_partial: reading the file with any changes equals the constructor on the changes alone, errors included, unless the pole is changed to the north without its five dependent options. C82_unchanged: the untouched file with any seed equals no file. C82_pole_refuted: changing only the pole keeps the south-pole values, in every environment.",
 "C83": "Every cell is the mean (std) over the seeds for any melt function, CPU count and completion order; ranges, cold and pure ejecta; the script's saved table (six digits) has increasing labels and completes every default run. Exact arithmetic: the float rounding of int(n/(1+mr)) is not modelled. An empty list of ratios in a pool raises (C65).",
 "C84": "False as stated: the colour of a layer is the ice percentage of the deepest layer with the same hatch, so two ice layers of different content look alike (C84_colours_refuted, for every hash, sort and crater list). Proved: the ranges, largest source and hatch of each layer, that the hatch seen is the layer's own, exactly which percentage gives the colour, that the legend does not change it (C84_drawn), own colour when no deeper layer shares the hatch (C84_colours_partial), the error for unlisted sources, the legend order and the layout of axes.",
 "C85": "Proved for the default lunar radius, transition diameters no smaller than those in the transient laws, impact angles below 90 degrees and basins no wider than the Moon. For other radii refuted by C85_radius_refuted: distances always use 1737.4 km.",
 "C86": "Refuted for layers thinner than min_thick, which show the layer below or nothing; the partial theorems give exactly what is seen at each depth, the failure condition and the complete-run version.",
 "C87": "Refuted for three-digit colours (C87_short_refuted); the rest of the claim is proved for all lists of six-digit colours.",
 "C88": "For every rounding with the stated properties; the properties are proved for binary floats. The group sum of pandas is a parameter with an error bound. C88_close assumes that no model time lies between the exact and the rounded age limit.",
 "C89": "The figure is computed for every nonempty list of seeds; at each time impactor plus basin ice is the mean of the runs' asteroid ice and of the comet ice from the same generator state, gardening and ballistic sedimentation are those of the runs. The claim about the total is false: volcanic and solar wind ice are counted twice (defect 33), refuted with the default configuration and the shipped data. Seeds of 0 make the figure depend on a number drawn outside the seeded generator.",
 "C90": "Eras, bars, error bars, layout and additivity are proved for all tables. The shading labelled Max is the mean (defect 34), refuted with the default configuration.",
 "C91": "Paths are lists of names in the spec (Spec/Where.lean), so the theorems do not use the path functions of the model. C91_default: no out_path. C91_given: out_path without the seed, last directory numeric or not. C91_kept: out_path ending with the seed. C91_inputs: data files. FilesIn lists output directory, figures and every *_out file. A directory that already exists keeps its closing slash, hence SameDir. Related: C57_seed_dir.",
 "C92": "Full statement false: the depth panel uses the mixing ratio at one diameter for all distances (C92_depth_refuted; C92_depth_partial says where it shows too much and too little). Panels of speed, thickness and energy, their shape in the shipped figure, the line styles and the marker are proved. Round trip of the configuration through to_dict for the Earth constants is taken as given.",
 "C93": "Full claim refuted (finding 36): a path that mentions the version as text gets no label, so versions or figures can share a file, and a name without extension loses its format. Proved: exact file for every directory, name and version; every saved path contains its version; distinct files when the path does not mention the versions; with defaults all 21 files are distinct and labelled. pathlib as in CPython up to 3.13 is trusted.",
 "C94": "Full claim refuted (finding 37): the listing is not sorted. Proved: the directory found holds the layers and is the last such in the listing (iff); error iff none; the latest when the listing is sorted by name.",
 "C95": "Text of a configuration file: every spelling (layout, comments, quotes, escapes, pieces, number formats, trailing commas) is read as the dictionary it spells, and composing with the constructor gives the configuration back. Assumed: pprint prints a spelling of the dictionary. False for infinite or NaN parameters, which are accepted but print as words that cannot be read (C95_saved_refuted, C95_nonfinite).",
 "C96": "Square grids: one slice per crater with its own thickness law at each point, zero elsewhere; the figure shows the sum. False for rectangular grids (ValueError) and for a figure of a configuration that is not the default (C96_figure_refuted).",
 "C97": "Rounded times are modelled beside the exact ones (Model/TimeFl); numpy compares a float32 array with a Python number in float32, with a float64 array in float64, both covered by the error bound u.",
 "C98": "Every draw of asteroids, comets and basins, the mean sources, the solar wind and the cold trap shares are pinned, for every lawful generator. The chance that a drawn crater is wet includes the share of the kind a second time (C32).",
 "C99": "C99_slices, C99_even, C99_totals and C99_default hold for all tables. Refuted: the argument bins is ignored (C99_bins_refuted) and the shading labelled as maximum is the mean (C99_shade_refuted)."
}