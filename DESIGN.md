# Formal model of MoonPIES: design

Subject: `cjtu/moonpies` as found in `/repo` (python, read only). Properties: `properties.jsonl` (C01..).
Lean project: `lean/`, modules under `lean/Verif/`, imported from `lean/Verif.lean`.

## Layout

* `Verif/Model/*.lean` — functions of the code, branch by branch. Each definition cites file and lines in `/repo`.
* `Verif/Spec/*.lean` — small specifications used in the statements; they do not use the model's helpers.
* `Verif/Lemmas/*.lean` — helper lemmas.
* `Verif/Props/*.lean` — the property theorems (listed in `MANIFEST.json`), each with an `example` that meets the hypotheses in a non-trivial case.

## Modelling conventions

* **Numbers.** Arithmetic-only code is modelled over an arbitrary linearly ordered field `K` (so the theorems hold for ℚ and ℝ at once; concrete examples use ℚ). Code with exp / log / trig / real powers is modelled over ℝ.
* **Rounding.** The column loops (`garden_ice_column`, `erode_ice_cannon`, `update_*`) and, in `Model/StratFl`, the stratigraphy table take a rounding function `fl` applied after every arithmetic operation. Safety theorems (C01, C02, C03 in weakened form, C09, C10, C12, C88) hold for each `fl` that is monotone, fixes 0 and is idempotent; C88 also bounds the distance to the exact table by the relative error of `fl`. `Model/Float` defines binary round-to-nearest-even and `C88_doubles` proves these assumptions of it (overflow left out; the relative error also needs that nothing underflows). Exact theorems use `fl = id`. `Model/TimeFl` rounds the model times and what is computed with them (C97). The other numeric modules are over exact numbers: rounding error is outside them.
* **NaN** is `none : Option K`. Functions that can see NaN take `Option`.
* **Exceptions** are values of `Except PyErr`. Out-of-range list indexing is an explicit error branch, never a default.
* **Randomness.** A generator is an arbitrary function/stream; theorems quantify over every stream. Distribution facts that matter (support, expectation) are stated about the parameters the code passes.
* **External calls** (numpy, pandas, scipy) are modelled by their documented result on the inputs that occur; the model definition says which call it stands for.
* **Mutable arrays** are threaded explicitly. Where aliasing matters (in-place updates of shared arrays, caller's arrays mutated) this is modelled and stated.

## Trusted base

* Lean 4.33.0 kernel, Mathlib definitions. Axioms: at most `propext`, `Classical.choice`, `Quot.sound` (the gate replays every module). No own axioms, no `sorry`, no `native_decide` / `bv_decide`.
* The reading of the Python source in each model definition (cited line ranges). Nothing was executed: the sandbox has none of the dependencies.
* The behaviour of external calls, listed next.
* `tools/shipped.py`, which transcribes the shipped data files into `Model/Shipped` (C74 and the examples use them).

## Assumptions about external calls

* **numpy arrays** are lists; broadcasting is only modelled where the shapes that occur need it. Elementwise arithmetic is exact outside `Model/Column`, `Model/StratFl` and `Model/TimeFl`, where every operation is followed by an arbitrary rounding.
* **`np.linspace`, `np.interp`, `np.cumsum`, `np.around`, `np.choose`** follow their documentation; each has its own definition with the call named.
* **Random generator**: a state machine `Gen σ` (`Model/Impact`). `LawfulGen` asks only that samplers return the requested number of values in the support of the distribution. Nothing is assumed about independence, about distinct seeds or about draws of size 0. The check that probabilities sum to 1 is exact (numpy has a tolerance).
* **`sort_values`** is unstable: any function returning a permutation sorted by decreasing age. **`set` order** is an arbitrary function returning the distinct elements.
* **pandas `groupby(sort=False)`, `dropna`, `.loc`, `interpolate`** are modelled on the tables that occur, with `KeyError` / `IndexError` branches.
* **scipy `truncnorm`** returns `loc + scale * z` with `z` in `[a, b]` and raises unless `a < b` and `scale ≥ 0`.
* **File system**: a tree addressed by path components, without symbolic links, permissions, quotas or other processes. Each primitive change is a separate step.
* **CSV round trip** of numbers is exact. The melt table is read as exact decimals, not float32.
* **Config values**: containers hold scalars only. The environment (home, working directory, date, random seed, existing directories, imported module contents) is an argument (`Env`).
* **`lru_cache`**: cached objects are not mutated by callers.
* **`multiprocessing.Pool`**: any completion order; results are collected by task.
* An infinite ejecta thickness (trap exactly antipodal to a peak-ring basin) stops the run model with `RunErr.infinite`; no claim is made about such runs. Non-finite temperatures of `heat1d` are outside the model.

## What is not modelled

* CSV and pickle parsing: files are tables of numbers and strings (their unit conversions are modelled in `Model/Main`).
* Matplotlib beyond the areas of a column and which of them is on top (`Model/PlotStrat`) and its colour tables (`Model/Cmap`); progress printing.
* Floating-point overflow, and rounding outside the column loops, the stratigraphy tables and the dating of events (C97).
* The numeric generation of random numbers.

## Defects and surprises found in the code

Each refuted claim has a concrete witness in Lean.

1. `main` discards the result of `df[~df.isbasin].reset_index(...)`: `ejecta_basins=False` has no effect (C62). It returns only the stratigraphy tables although the docstring promises three values.
2. `get_time_array` uses `timestep` as the last time and `(start-end)/step` points: right only for `timeend = 0` and a dividing step (C19).
3. `garden_ice_column` counts the ice left in a layer, not the ice it held, toward its depth, so it can remove any multiple of the overturn depth (C05).
4. `erode_ice_cannon` compares the surface time, not the layer being eroded, with the erosion base, so a buried ejecta layer does not shield the ice below it (C08).
5. Ejecta thickness is 0 for a radius of exactly half `simple2complex`; `get_ej_thick_basin` modifies the caller's distances and uses the default configuration; a basin inside its transient radius gives NaN, then 0 (C36). Unusual angles can give negative thickness.
6. Ejecta below `thickness_min` is not zeroed, only unlabelled (C18).
7. Grid versions of the distance rule ignore negative thresholds and disagree at the annulus boundary (C37). Rectangular grids raise a broadcasting error (C67, C68). Northern latitudes come back mirrored from `xy2latlon` (C35).
8. The NK volcanic mode always raises (`cfg.species` does not exist) (C46).
9. The two masks of `get_random_hydrated_basins` can overlap when comets are off (C29).
10. `ice_retention_factor` exceeds 1 just above 10 km/s and jumps (C33).
11. `comet_speed_rv` measures the truncation bounds from the mean, so speeds leave `[comet_speed_min, comet_speed_max]` (C30).
12. The comet fraction is applied twice in the stochastic regimes, so by default comets deliver 5 % of their ice there in the mean (C136), and all micrometeorites are cometary when comets are on (C32).
13. Mode default of `impact_speed_mean` is never applied (C53); `int()` casts truncate silently and any non-empty string switches a flag on (C54); a numeric last directory of `out_path` is trimmed and a separator is added on each round trip (C56); two seeds can share an output directory (C57).
14. `get_all_labels` depends on string hashing and can contain `,,` (C25).
15. `get_melt_frac` interpolates by position, not by label, and raises outside the table (C50).
16. `get_diam_array` with a step longer than the range returns only the smallest diameter (C41).
17. `clean_up_strat_col` uses the `None` returned by `list.extend`, which drops layers, and modifies its argument (C69).
18. `--resume` skips a seed whose directory exists, even after a crash (C59); running where a default output name exists makes `makedirs('')` raise (C60).
19. `get_melt_frac_arr` raises for an empty list in the pool path only (C65).
20. With `impact_ice_basins` off no basin speeds are drawn, so later draws shift and comet ice changes although the code draws basin ice "every time for repro" (C76; for one crater table it is stable, C71).
21. At the north pole no run with the shipped data returns: its cold traps are in neither the crater list nor the hop table (C74).
22. A cold trap missing from the crater list, or without centroid coordinates (all basins), silently gets no ejecta; a duplicate name raises `ValueError` (C37).
23. `get_ice_cols_time` raises `ZeroDivisionError` for a hop efficiency of 0. `randomize_crater_ages` raises for zero error bars. `make_strat_col` raises `IndexError` when no time is below the age.
24. `f2t_melosh` hard-codes the simple-to-complex diameter, and `diam2len` passes transient diameters to a law for final diameters (C38, C39).
25. `melt_frac_teq_1d` counts only target cells melted after a step, so a target warm from the start is not counted (C66).
26. `agg_coldtrap` filters ice and depth by age but not time, so a file with a row older than its formation row shifts all later times (C80). Tables written with `strat_after_age` have no such row. `aggregate` ignores failed processes and reads every pickle it finds, also old ones (C80).
27. `rename_runs` renames in place one name after the other: a new name that is a later run name is renamed again (C81).
28. `make_default_cfg` leaves the mode options out of the file but not the pole options: changing only `pole` to `n` in the file keeps the cold traps, areas and efficiencies of the south pole (C82).
29. `plot_strat` fills, for each row, every stretch with the same hatch, so a layer gets the colour of the deepest layer with its hatch: all ice layers of a column look alike (C84).
30. Distances are measured on a Moon of 1737.4 km whatever `rad_moon` says, while the basin law uses `rad_moon`: with a smaller radius a trap opposite to a peak-ring basin gets negative ejecta; with the default radius the ejecta at the exact antipode is infinite (C85).
31. `plot_stratigraphy` raises `IndexError` for tables made without `strat_after_age`, and `KeyError` for a trap whose layers are all thinner than `min_thick` (C86).
32. `make_cmap` reads three-digit hex colours as values below 16 (`#fff` is almost black) and divides by 256, so white is not reached (C87).
33. `_get_ice_ast_comet_seeds` adds the asteroid and the comet table, although the volcanic and the solar wind column are the same in both: the figure shows twice the ice of these modules and counts it twice in the total (C89). Its default seeds `range(10)` contain 0, which `Cfg` replaces by a random number, so the figure is not reproducible.
34. `plot_by_module` labels the shading of losses "Max", but draws the mean of the era (C90); so does `plot_by_module_time`, which also ignores its argument `bins`.
35. `ejecta_distance` takes the mixing ratio at one crater diameter for the whole curve, so the sedimentation depth it shows is a run's depth at two radii only: too large nearer to the crater, too small farther out (C92).
36. `_save_or_show` skips the version label when the whole path contains it as text, so in a directory called `…_v1.1.0` the figures of version `v1.1` are saved over those of `v1.1.0`; `a.pdf` and `a_v1.pdf` share a file; a name without an extension gets the end of the version as its extension; `kde_layers` and `ice_retention` pass no version (C93).
37. `_get_datedir` takes the last directory in the order `iterdir` lists them, which is not sorted, so it is the latest only by luck (C94).
38. An infinite or NaN parameter is accepted by `Cfg`, but the file saved for the run prints it as `inf` or `nan`, which `ast.literal_eval` refuses: the run cannot be repeated from its file (C95).
39. `grid_plots` takes craters and axes from its configuration but calls `get_grid_outputs` without it, so ages and ejecta are those of the default thresholds, exponent and start (C96).
40. `basin_ice` draws every run from the seed of the default configuration, whatever its seeds, and its moving average divides by three at the ends, too (C102).
41. `volatilized_fraction_bsed` gives `imshow` the labels as outer edges, so the cell of each tabulated value lies to the left of its temperature and below its ejecta fraction: half a cell off (C103).
42. `random_crater_ages` draws the lower panel around the ages drawn with seed 99, since `randomize_crater_ages` overwrites the frame of its caller: ages leave the error bars. Ages of 4.20 billion years are in no bin, so runs for Haworth are left out. Seed 0 is replaced by a random one (C104).
43. `ballistic_hop` has its own list of latitudes, some of craters and some of the shadowed regions in them: de Gerlache is drawn at 88.3 degrees but listed at 88.5 (C105).
44. The retention law of this work is above 100 times the value of Ong et al. at 60 km/s, invisible at the scale of the figure (C106).
45. `ast_comet_vels` ends its axis at `comet_speed_max`, but `comet_speed_rv` takes that as distance from the mean speed, so faster comets are drawn and not shown (C107, C31).
46. The erosion the test suite compares with starts its base at 0, so it erodes nothing in the first timestep; `erode_ice_cannon` does (C108).
47. With less ice in the column than is eroded, that reference wraps round to young layers through negative indices and then raises `IndexError`; `erode_ice_cannon` removes all ice (C108).
48. As `diam2len` passes transient diameters to the law for final ones (24), impactors of complex craters of 15 to 18 km are smaller than those of simple craters of 15 km; with final diameters both laws agree to 2% at 15 km, so the regimes need not move as `crater_scaling` proposes (C111).
49. Simple craters of 100 to 228 m are made by impactors below 3 m, which the ice of small impactors counts too (C111).
50. `crater_scaling` draws complex craters as one straight line although three laws apply, and labels metres as kilometres (C111).
51. `crater_basin_ages` draws the listed errors about ages drawn at random without a seed, so bars may miss the listed ages, and it needs a cold trap reached by ejecta of Nectaris (C114).
52. `get_diam_array` truncates a quotient of doubles, so a setting such as 0.2 to 0.5 by 0.1 loses a diameter; `probabilistic_round` may turn a whole number into the next one (C137).
53. `plot_stratigraphy` rebuilds the path of the tables from the run name, so it finds nothing when `out_path` was given and its last directory is not the run name, as in the example of the README (`~/Downloads/`); for such an `out_path` the figures go to a directory named `~`; the README names files (`config_<run_name>.py`, `ej_columns_mpies.csv`) that are never written, and docs/model_overview.md names functions that do not exist (`get_overturn_time`, `garden_ice_col`) (C138).
54. A basin that reaches no cold trap can change the ice lost to other craters, because its ejecta temperature becomes a column of the melt table, which is interpolated by position (C139). With the shipped temperatures (140, 260 and 420 K, all columns of the table) this does not happen.
55. `docs/model_overview.md` 26 says that ice deposition occurs first in a timestep. In the code ballistic sedimentation comes before: it works the layers up to the previous timestep only, and neither the ice nor the ejecta of its own timestep (`C142_column`, `C142_order_matters`). Some functions named there do not exist under these names (read off the code, not modelled).
56. The supply of the solar wind is written into `solar_wind_ice_mass` in kilograms per second, while all other masses come from the configuration. So a configuration in other units (say grams and their densities) is consistent for everything but the solar wind (`C143_run`, `C143_solar`).
57. Seven of the nine tests of `erode_ice_cannon` use integer arrays. There 0.9 m is stored as 0, so both sides lose a metre instead of 0.1 m, and any depth in (0, 1] m passes (C144). `test_ice_large_craters_D` and `_E` take the Boolean mask of hydrated craters as diameters, so their craters have 0 or 1 m (read off the tests, not modelled).
58. `test_garden_ice_column` fails: it expects `[10, 0]` and `[5, 0, 0]` where the code gives `[0, 0]` and `[0, 0, 0]`. It follows the comment in the code, "Count all ice in layer towards depth", while the code counts the ice left after removal (finding 3, C145).
59. The ice of comets is computed before the switch `impact_ice_comets` is looked at (moonpies.py:890-893, by intent: "run every time for repro"). It is then dropped, so comet settings do not change a run that completes with comets off, but a bad comet setting still raises (`C146_off_refuted`).
60. With `ballistic_hop_moores` on (the default) `ballistic_hop_effcy` has no effect on a run as long as it is not 0 (`C148_hop`). The value 0.027 that `ice_species = "CO2"` selects is then never felt: CO2 gets the efficiencies of the table.
61. Impacts of a timestep are counted at the flux of its older end (moonpies.py:2116-2120, 2163-2177). Over the default run this gives 3.4 to 3.6 percent more impacts than the chronology the flux is taken from (`C149_shipped`).
62. The depth of gardening after Costello et al. is per timestep (moonpies.py:1531-1532) and nothing scales it when `timestep` is changed, unlike the erosion of Cannon et al. (moonpies.py:1514-1516). With shorter timesteps less ice is kept and in the limit none (`C150_vanishes`).
63. Gardening after Costello et al. amplifies small changes of its depth up to 2^n − 1 times in a column of n layers (C152): `garden_ice_column` counts the ice it leaves towards the depth but not the ice it removes, so every layer passes on twice the change that reached it. One millimetre more depth takes seven millimetres more ice from three layers of 12, 6 and 3 m gardened to 8 m. The Cannon erosion does not amplify.
64. Layers exactly as thick as the depth of gardening are all lost, however many there are, but a depth smaller by the part 2^−k saves all but the k youngest (`C152_cliff`). So rounding can decide: a hundred layers of 0.3 m gardened to 0.3 m are all lost, but with layers of 0.1 + 0.2 m in double precision over 13 m of ice remain (`C153_cliff`).
65. With gardening after Costello et al. a little more ice in one layer can save much more ice below: the additional ice uses up depth, and every layer below passes on twice what it was spared (C154). A millimetre more in the youngest of four layers can leave eight millimetres more.
66. `notebooks/cannon2020.ipynb` measures ejecta distances from twice the position of each crater (C155), and both cells that do so raise `ValueError` on the grids they are given, one of them as recorded in its output. Its map of craters cannot tell north from south, so craters around the north pole are counted as within 250 km of the south pole and at least six of the thirteen basins listed as reaching it lie on the northern hemisphere according to `basin_list.csv`; craters beyond the grid in one coordinate only are in neither list, even when their ejecta cover the pole.
67. `volc_early_pct` and `volc_late_pct` are documented as percent of total volcanics and `volc_total_vol` as a total volume in km³; the code uses a yearly volume in m³, so they are shares of a total only while both epochs last exactly 1 Gyr, as by default (C159). Halving an epoch halves its ice; an epoch shorter than the timestep may give none.
68. The number of craters drawn in a timestep is its expected value rounded up or down at random, so the ice of drawn craters varies less than with independent impacts, always (C160). With every impactor wet and many craters a step, almost only the variation of sizes and speeds is left.
69. Ejecta shield ice from the erosion of Cannon et al. only at the timestep at which they land (moonpies.py:1411-1436). How long they protect is thus the length of the timestep, and shorter timesteps leave less ice although the erosion of unshielded ice does not depend on their length (C165).
70. With the default configuration the ice of volcanism and the solar wind is always lost at once where no ejecta land in the same timestep: at most 0.053 m come, and gardening removes 0.09 m or more of fresh ice (C166).
71. The two models of loss are not ordered: to the same depth, gardening after Costello et al. takes the full depth from old ice again and again below fresh thin ice, where erosion takes what is left of its budget; under ejecta between the depth of gardening and 0.4 m gardening takes nothing and erosion all it can (C167).
72. Depths in the stratigraphy tables are too small by the timesteps too thin to be shown above a layer: up to 2 mm each with the default `thickness_min`, so by at most 0.85 m in all (C168).
73. Micrometeorites alone outrun gardening before 3.95 Gyr ago in six of the twelve cold traps and before 4.15 Gyr ago in all but Shackleton, in every run of the shipped configuration (C169). The rate of micrometeorites scales with the impact flux, the depth of gardening only linearly with time.
74. Losses reach only downwards: ice of one age is never changed by what was delivered before, so no layer of the last 2 Gyr tells anything about volcanism (C170).
75. A larger `thickness_min` can split a layer in two, so the number of layers is no measure of it (C172).
76. `strat_after_age` can cut a layer: the table then shows less of it, under the same label and time, without saying so (C173).
77. Ice is laid down in a cold trap from the start of the run, before its crater exists. It is harmless: the table cannot depend on it (C174).

## Per property: what is modelled and how it is proved

| id | model | statement and proof |
|---|---|---|
| C01 | `Model/Column` garden loop over lists, `fl` rounding | loop invariant by induction on layers |
| C02 | same | frame lemma by induction |
| C03 | same | from C04 (exact); separate induction for the rounded single-shield form |
| C04 | same | loop = depth-budget rule by induction; uniqueness by downward induction |
| C05 | same | false: `C05_refuted`; layerwise bound as `_partial` |
| C06 | same | downward induction on the rule of C04, all four inputs |
| C07 | `Model/Column` Cannon loop | exact sum and order by induction |
| C08 | same | false (`t > erosion_base` in the code): `C08_refuted`; surface shield as `_partial` |
| C09-C13 | `Model/Column` update loops, dict of columns | induction on cold traps, then on timesteps; truncation commutes with the run |
| C14-C16 | `Model/AgesToTime`: mask, nearest index, aggregate per time | sums over lists; permutation invariance |
| C17-C18 | same, string aggregate and label thresholds | list of names per bin; C18 false: `C18_refuted` |
| C19 | `Model/TimeArray`: `linspace` and `int()` | closed form of entries; false in general, `_partial` for `timeend = 0` and dividing step |
| C20-C24 | `Model/Strat`: `make_strat_col`, groupby-merge, cumsum | list induction |
| C25 | `Model/Strat` labels with an arbitrary set-iteration order | order nondeterminism: false (`C25_refuted`), content statement as `_partial` |
| C26-C28 | `Model/Rounding`, `Model/RandomAges` | floor/ceil algebra; integral over the draw; permutation. `C28_raises_iff`: random ages raise exactly if the two error bars of some row do not add up to a positive number (scipy rejects a scale of zero or less) |
| C29-C32 | `Model/Random`: draws as arbitrary values, distribution parameters | set disjointness, support intervals, convex combinations, expectations |
| C33 | `Model/Retention` over ℝ | false just above 10 km/s: `C33_refuted`; `_partial` for the range where it holds |
| C34-C35 | `Model/Geo` over ℝ | inner-product geometry of the sphere; arctan/arcsin identities |
| C36-C37 | `Model/Ejecta` | monotone powers; case split on masks; the law of each regime written out (`C36_laws`, `C36_basin_law`); regime-boundary defect refuted |
| C38-C40 | `Model/Scaling` over ℝ; `Spec/Prieur` states the law in dimensionless form | the transient diameter inverts the collapse laws; strict monotonicity of real powers; the interpolated length is never below the exact one and less than a table step above it (concavity) |
| C41-C42 | `Model/Flux` | normalised weights and their power-law ratios; monotone exponential |
| C43-C49, C51-C52 | `Model/Ice`, `Model/Interp`, `Model/Bsed` | field algebra and case splits |
| C46 | `Model/Ice` | NK mode raises before producing anything: `C46_refuted`; segment accounting and where each tabulated mass goes as `_partial` (`C46_loop_partial`, `C46_body_partial`) |
| C50 | `Model/Bsed`: pandas interpolation by position | range proved; locality false: `C50_refuted` |
| C53-C58 | `Model/Config`, `Model/PosixPath`: fields as Python values, paths as strings | case analysis over field tables |
| C59-C60 | `Model/Files`: filesystem as a map, crash after any prefix of writes | induction on the write list; interrupted-run claim false |
| C61 | `Model/Cache`: cache as recency list | induction over call histories |
| C62 | `Model/Main` | false (result of the filter is discarded): `C62_flag_ignored`, `C62_refuted` |
| C63-C66 | `Model/Thermal` over an ordered field | maximum principle as convex combination; loop invariants; map over any completion order |
| C67-C68 | `Model/Grid` | fold of minima; linspace symmetry |
| C69 | `Model/Plot` | false: `C69_refuted` |
| C70 | `Model/Plot` | sums of filtered rows |
| C71 | `Model/Impact`: generator as an abstract state machine | two runs on the same table compared stage by stage |
| C72 | `Model/Main`: composition of all stages | success stage by stage (`Lemmas/Main`, `Lemmas/MainTotal`), then C09, C21, C22 |
| C73 | `Model/Column` | two-run induction using C06 for Costello gardening and an induction over the erosion loop for cannon mode |
| C74 | `Model/Shipped`: the data files, written by `tools/shipped.py` | hypotheses of C72 checked in the kernel for the files; north pole: trap not listed |
| C75 | `Model/Main` | matrix columns traced through distances, thickness and `ages2time` |
| C76 | `Model/Main`, `Model/Impact` | asteroid half proved (`_partial`); comet half false: `C76_refuted` with a generator that notices a drawn speed |
| C77 | `Model/Strat` | whole table as merge of specified rows (`C77_table`); reading of each label |
| C78 | `Model/Main` | C77 for the steps of a run, sources traced to the crater table with C17 and C09 |
| C79 | `Model/CfgDecode`: attribute access from `Model/Config` to `Model/RunCfg` | acceptance by field tables checked in the kernel; decoding field by field; composed with C55, C56, C58, C74 `C79_containers` reads the tuples and the dictionary of regimes. |
| C80 | `Model/Agg`: files of a run directory to pickles to flattened tables; float32 not modelled | false in general: `C80_mixes_rows`, `C80_stale`; `C80_file` says exactly when the columns of a file agree; `C80_tables_partial` for tables written by runs and a fresh directory, by dictionary lemmas, composed with C24 and C70 |
| C81 | `Model/Agg` `renameRuns` | false: `C81_swap_fails`, `C81_short_fails`; `C81_exact_partial` is the exact condition, by following one name through the loop |
| C82 | `Model/DefaultCfg` `makeDefaultCfg` (the dictionary; its text is C95) | `C82_file`, `C82_unchanged`; `C82_edits_partial` by comparing two constructor calls step by step (`makeCfg_congr`); false for the pole alone: `C82_pole_refuted` |
| C83 | `Model/MeltFrames`: `makeMeltFrames`, `fmtG` (the `%g` of the saved file), `meltScript` | `C83_cells` (mean and deviation of each cell), `C83_generated` (success and ranges, from C63, C65, C66), `C83_script` and `C83_run` (the script's table drives a complete run, from C72), `C83_shipped_labels` |
| C84 | `Model/PlotStrat`: `stratRanges`, `lithKey`, `hatchSource`, `plotAreas` with what is seen of them (`hatchAt`, `colourAt`), `legendLabels`, `recolour`, `axisOf` | `C84_ranges`, `C84_missing`, `C84_drawn` (any sort by depth gives the doubled layers; an area covers a depth iff it has the hatch of the layer there; the last one is seen), `C84_legend`, `C84_axes`; own colours refuted (`C84_colours_refuted`), kept as `C84_colours_partial` |
| C85 | `runMain` as for C72 | `C85_row_ejecta_partial` (each regime of the thickness law; the basin correction is a positive flat ring over the spherical ring, whose sign is that of sin(d/R)), `C85_run_tables_partial`; default lunar radius assumed, otherwise refuted (`C85_radius_refuted`) |
| C86 | `Model/PlotColumn` `plotColumn`: one file in `plot_stratigraphy` (title, cleaned table, areas) | `C86_column_partial` (exact failure condition, title, cleaned rows, what is seen at each depth) from the shape of a table (`table_parts`), C69 and C84; `C86_own_layer`; `C86_run_picture_partial` for complete runs via C85; `C86_no_formation`; false for thin layers: `C86_thin_refuted` |
| C87 | `Model/Cmap`: `hexToRgb`, `makeCmap`, the 256-entry table of `LinearSegmentedColormap`, the entry of a percentage | `C87_hex`, `C87_gradient` (each entry lies between two neighbouring knots), `C87_locs`, `C87_locs_refused` for given locations, `C87_ordered`, `C87_default`; false for three-digit colours: `C87_short_refuted` `C87_digits` covers any number of digits. |
| C88 | `Model/StratFl`: `make_strat_col` with `fl` after every operation, the pandas group sum (compensated in pandas) a parameter with an error bound; `Model/Float`: binary floats | `C88_exact` (no rounding gives `Model/Strat`), `C88_sensible`, `C88_close` by induction over the layers with relative errors; `C88_doubles` shows the assumptions for doubles and left-to-right sums |
| C89 | `Model/IceByModule`: `_get_agg_bsed_depth`, `_get_ice_by_module`, `_get_ice_ast_comet_seeds` and the sums of `plot_by_module`; the frame multiplied by 0 is a frame of zeros; frames as functions of the column | `C89_returns`, `C89_modules_partial` (each table compared with the run of the seed, summed over seeds; volcanic and solar wind counted twice), `C89_seeds`; the claim about the total is false: `C89_refuted` with the default configuration and the shipped data |
| C90 | `Model/EraBars`: `pd.cut`, statistics by era, bars, error bars, shading | `C90_eras`, `C90_bars`, `C90_layout`, `C90_total`, `C90_shade_partial`; the shading is the mean, not the maximum: `C90_refuted` with the default configuration |
| C91 | `Model/Config` path steps; `Spec/Where`: paths as lists of names | `C91_default`, `C91_given`, `C91_kept`, `C91_inputs`; the name of the seed directory is specified by `SeedText` (`C57_seed_dir`) |
| C92 | `Model/EjectaFig` over ℝ | flight equation and energy of each point; energy falls because tan φ / φ³ does (chord bounds on sine and cosine); depth panel false: `C92_depth_refuted`, exact comparison as `_partial` |
| C93 | `Model/FigFiles`: the part of `pathlib` used, `_save_or_show`, default names of the 21 functions that save a figure; paths specified as lists of names (`Spec.pathOf`), names as stem and extension (`Spec.NameExt`) | `C93_file`, `C93_named`, `C93_default`; distinctness holds when the path does not mention the version (`_partial`), false otherwise (`_refuted`) |
| C94 | `Model/FigFiles.getDatedir`; the listing order is an input | `C94_found` (iff), `C94_none` (iff), `C94_latest_partial` for sorted listings, `C94_latest_refuted` |
| C95 | `Model/PyText` (`literalEval`: tokenizer and parser of literals; `readCfgText`); rounding of decimals is a parameter; `Spec/PyText.Writes` says which texts spell a value, `pprint` is assumed to print one of them | `C95_read`, `C95_unique`, `C95_config`, `C95_writable`, `C95_saved`: induction on the spelling, for the tokens and for the parse; infinities and NaNs cannot be read back: `C95_nonfinite`, `C95_saved_refuted` |
| C96 | `Model/Grid.getGridOutputs`, `Model/GridFig.gridPlots` | `C96_thickness_partial`, `C96_figure_partial` for square grids, from `C68_dist_grid_partial` and the thickness laws of C36; `C96_refuted_rectangular`; the figure ignores its configuration: `C96_figure_refuted` |
| C97 | `Model/TimeFl`: the functions that make, round and compare times once more with their roundings (`fd` double, `fs` the dtype, `fl` the arithmetic with times); `Model/Float` for the actual formats; the values binned are not rounded here | `C97_times`, `C97_order`, `C97_ages`, `C97_ages_exact`, `C97_dating`, `C97_head`, `C97_strat`, `C97_cut` by error bounds on the grid; `C97_shipped` for float32 and `rtol = 1e-6`; `C97_tolerance_needed` shows an event lost without `rtol` |
| C98 | `Model/Impact`, `Model/Main`; `Spec/Sources` writes every source from the configuration values alone (kinds of impactors, production polynomial, sizes, showers, basins, chain of draws); it keeps two peculiarities of the code recorded under C32: the share of the kind enters the chance of being wet once more, and with comets on all micrometeorites are cometary | `C98_polar_ice`, `C98_run`: functions inverted bind by bind in `Lemmas/Sources`; each impactor is identified by the forward scaling laws of C11/C40, each dated basin by C15, the cold trap shares by C44 |
| C99 | `Model/TimeFig`: `pd.cut` into equal slices, means by slice, running sums; `Spec/TimeFig` says when a time is in a slice | `C99_slices`, `C99_even`, `C99_totals`, `C99_default`; `C99_bins_refuted` (the argument `bins` is ignored, there are always 85) and `C99_shade_refuted` (the shading labelled as maximum is the mean) |
| C100 | `Model/Quantile`: linear quantiles, boxes with whiskers at the 1st and 95th percentile, arrows, thresholds, violin lines (the density itself is left out); `Spec/Quantile` ranks values by counting | `C100_quantile`, `C100_box`, `C100_exceeds`; `C100_arrows_partial`/`C100_p99_refuted` (the arrow `p99` is at the 95th percentile), `C100_thresh_partial`/`_refuted` (5% only for the depths 6 and 100), `C100_violin_partial`/`_refuted` (runs below 1 m are dropped before the quartiles) |
| C101 | `Model/RngArg`: the crater table for each kind of `rng`; fresh randomness of the operating system as arbitrary states; `Spec/RngArg` says which draw makes which mark and age | `C101_drawn`, `C101_generator`, `C101_reproducible_partial`; `C101_reproducible_refuted` (without `rng` the configured seed has no effect, as in several figures), `C101_seed_refuted` (a seed is used twice from its start, so marks and ages come from the same random stream) |
| C102 | `Model/RngArg`: runs of the figure, `np.convolve(…, 'same')`, means and percentiles by time | `C102_figure` (runs by `Spec/RngArg.BasinRun`, curves by `Smooth3` and `Quantile`), `C102_moving_average`; `C102_seeds_ignored` and `C102_ends_refuted`: the seeds have no effect, the first and last value are a third too low, and the times are those of the default configuration |
| C103 | `Model/VolatFig`: `imshow` with its extent, the added column at 100 K, bars of ejecta fractions; `Spec/VolatFig` says which tabulated point is nearest | `C103_cells` (what each point shows), `C103_marks`, `C103_nearest_partial` (the quarter of a cell next to its tabulated point); `C103_nearest_refuted`: the shipped table at 112 K and 97.4 % |
| C104 | `Model/AgeFig`: `hist` with its bins, `randomize_crater_ages` with its effect on the caller's frame, 100 runs and 100000 draws; `Spec/AgeFig` counts ages by 10 million years | `C104_upper`, `C104_lower` (what each panel counts), `C104_counted_partial`, `C104_shipped`; `C104_counted_refuted` (Haworth), `C104_lower_refuted` (Shoemaker outside its error bars), `C104_seed_refuted` `C104_bins`: a histogram counts every value between its outer edges once. |
| C105 | `Model/HopFig`: points, `polyfit` of degree 1 as the formula of its least-squares problem, line through two traps; `Spec/HopFig`: `BestLine` compares with all lines | `C105_figure`, `C105_missing`, `C105_traps`, `C105_lats`, `C105_visible`; `C105_lats_refuted` |
| C106 | `Model/RetFig`: four curves over `linspace`, and the data of Ong et al. | `C106_curves`, `C106_fit_partial`, `C106_negligible`, `C106_falls`; `C106_fit_refuted` |
| C107 | `Model/SpeedLaw`: functions of `scipy.stats.truncnorm` from the normal density and its integral, `comet_speed_rv` with the mixture of C31; `Spec/SpeedLaw`: `Distribution` (density, integral, rest) and `HasDensity` (law of a random variable) | `C107_asteroid`, `C107_comet`, `C107_asteroid_draws`, `C107_comet_draws` (hypotheses met: `comet_draws_exist`); `C107_shown_refuted` |
| C108 | `Spec/CannonRef`: `cannon2020_ds01_ice_erosion` of the test suite with negative indices and `IndexError`, against `erodeIceCannon` | `C108_gardening_partial` (all columns with enough ice, after the first timestep), `C108_shielded`; the rest is false: `C108_first_refuted`, `C108_thin_refuted` |
| C109 | `Spec/CannonIce`: formulas of the tests with literal constants; the model with `RunCfg.cannon` | `C109_micro`, `C109_brown`, `C109_small_impactors`, `C109_simple_craters`, `C109_kept`, `C109_large_craters`, `C109_thickness`, `C109_volcanic` |
| C110 | `Spec/CannonRun`: `eat`, `pile`, `pileSum`, `keeps`; whole run `runMain` | `C110_column` by induction on timesteps, `C110_run`, `C110_cannon` (with C13, C51) |
| C111 | `Model/ScaleFig`: lines and marks of `crater_scaling` and the regimes it proposes; `Spec/ScaleFig`: `OnLogLine` | `C111_lines`, `C111_basins`, `C111_simple_straight` (a power law is straight), `C111_overlap`, `C111_counted_twice`, `C111_proposal` (bounds by integer powers); `C111_complex_refuted`, `C111_units_refuted` |
| C112 | `Spec/Reach`: `Reaches` (angle between directions of the listed coordinates), `craterReach`, `basinReach`; model of `get_coldtrap_dists` as before | `C112_reach` (the list is exact; cosines evaluated in rationals with proved error bounds, `Lemmas/TrigEval`), `C112_run` (every drawn table has a distance exactly for listed pairs) |
| C113 | as C112; `Spec.ReachSources`: names of the listed rows dated to a timestep | `C113_thickness` (more than 1 mm if listed, else 0; `Lemmas/BasinThick`), `C113_labels` (layers are named after these, never "Minor source(s)") |
| C114 | `Model/AgesFig`: `agesFigure` (stars, bars, eras, axes of `crater_basin_ages`); `Spec/AgesFig`: `Hits`, `BarOf`, `Rising`, `Tiled` | `C114_figure` (for every draw), `C114_stars` (seven basins), `C114_no_nectaris` (`KeyError`), `C114_bar_random` (a bar may miss the listed age) |
| C115 | `Spec/Gentler`: `Gentler` (two configurations that differ in supply and loss); `Model/Main` | each stage compared (`Lemmas/Gentler`), then C73; `C115_gentler`, `C115_tables_only`, `C115_no_sedimentation`, `C115_no_solar_wind`, `C115_wetter_comets` |
| C116 | `Spec/Supply`: `scaleArr`, `scaleRes` (an array, or the array of a result, times a number); `Model/Impact`, `Model/Flux` | each module equals a factor times the module with all scaling options one (`Lemmas/Supply`); `C116_asteroids`, `C116_comets`, `C116_retained`, `C116_micrometeorites`, `C116_dry` |
| C117 | `Model/LayerFig`: rounding to one decimal, NaN for small values, `dropna`, `depth_top`, `iloc[::300]`; `Spec/LayerFig`: `DrawnLayer`, `Decimetres`, `Shows`. Over an ordered field, without the rounding of floats; density estimates are seaborn's | `C117_layers`, `C117_sample`, `C117_fewer`, `C117_one_run` (the drawn positions are multiples of 300, hence even, and even positions belong to the first run) |
| C118 | `Model/DistFig`: `distance_bsed` (plot_figs.py:261-329) without the points of the Ries crater; the table is drawn without a seed as in C114 and crater ejecta have no outer limit. `Spec/DistFig`: distances between listed coordinates, the complex-crater law and the mixing ratio, all from the files. Defects: `argmax` gives 0 for a trap that is not in the configuration, so its line is at the first trap; the labelled lines join the oldest row only; without Amundsen (north pole) an IndexError. The upper axis is labelled crater radii but shows metres | `C118_points`, `C118_marks`, `C118_vlines`, `C118_lines_at` (rational bounds on cosines), `C118_first_row` (Birkhoff is at least 4.238 Ga old, so the oldest row is one of ten basins; `C112_reach`), `C118_empty`, `C118_wrong_trap`, `C118_no_amundsen` |
| C119 | `Model/EjBsedFig`: `ejecta_bsed` (plot_figs.py:332-377) with `np.geomspace` over ℝ for positive ends. `Spec/EjBsedFig`: laws of the three kinds as equations without division, `LogSpaced` by integer powers. The axes are labelled km but show metres | `C119_markers`, `C119_shown` (comparison of radii and distances as integer powers), `C119_larger`, `C119_deeper` |
| C120 | `Model/StratFig`: `plot_stratigraphy` from files to panels, limits, titles and the table of percentages (columns as in C86), the axes lettered by `strat_cols_bsed` and `strat_cols_seeds`; layout of the legend left out (with one column it asks for a legend of 0 columns); `Spec/StratFig`: `FileAt`, `PanelShows`, `place`, `DrawnBase`, `Deepest` | `C120_columns`, `C120_fails`, `C120_titles`, `C120_percentages`, `C120_limits` (limit of a row: deepest layer of this row and the rows above), `C120_seed_letters` (right exactly with three cold traps), `C120_bsed_letters` (one run: `StopIteration`); `C120_scale_partial`, `C120_scale_refuted` (a deeper second run is drawn to another scale than the first) |
| C121 | No new model: two runs of `Model/Main`. `Props/Frame`: `SameEjecta` (the options that may not differ), `withLosses` (the options that may) | `C121_ejecta` (the draws of ages do not see the impactor types; ejecta as a sum over pairs of age and crater, so the order of rows drops out), `C121_modes` (both modes, shipped files, every seed; with C75 this shows that `ejecta_basins = False` has no effect), `C121_delivered` (before the main loop; the ice after losses is C115's subject) |
| C122 | `Model/TempFit`: cell 3 of `bsed_temp_fernandes_artemieva.ipynb` (the fit and the dashed curves; `np.polyfit` as the exact solution of the normal equations) and the two defaults of config.py:191-192. Spec: `BestQuadratic`, the points, `inRadii`, `DefaultTuple`. Defect: distances in km are divided by a radius in m, so the unit of the defaults is a thousandth of a crater radius, not a crater radius as their comment says; nothing reads them | `C122_best` (Gram determinant not 0), `C122_curve` (the unit cancels), `C122_params_partial` (four digits), `C122_radii_refuted` (coefficients a million and a thousand times too large; more than 3e7 K at four radii) |
| C123 | `Model/KeNotebook`: cells 1-4 of `ballistic_kinetic_energy.ipynb` (functions, arrays, printed examples, curves of energy; the other panels and the melted mass, which is a multiple of the energy, left out). Spec: `kmhPlanar`, `kmhSphere`, `EnergyAt` (by the flight equation). Defects: 28, 40, 400, 435 km are used as indices into an array starting at 10 km, so speeds over 38, 50, 410, 445 km are printed; speeds over 10-449 km are multiplied with thicknesses at one to four radii | `C123_package`, `C123_planar` (sin φ < φ and sin φ + cos φ > 1), `C123_quoted` (Taylor bounds), `C123_printed_partial`, `C123_printed_refuted`, `C123_energy_refuted` (for every radius at most one of 440 points is right: the tangent is injective) |
| C124 | `Model/StatsScript.lean`, `Props/StatsScript.lean`: older_scripts/moonPIES_stats.py. Files of runs are lists of 13 columns (pandas on other widths and the missing `mp.plot_version` are left out). `Spec.IceTotals` finds a crater's column by the order of the configuration, `Spec.StatsOf` says what the five statistics are. Figures are right for all runs; every row of the table carries another crater's name, with a run in which all twelve means are wrong. |
| C125 | `Model/KeContours.lean`, `Props/KeContours.lean`: older_scripts/KE_contours.py over ℝ (no 32-bit rounding, no six-digit output). `Spec.energySum` is the sum of energies at the angle between directions on the sphere. Proved: grid, TNT unit, longitude/latitude file, `ice_melted`. The x,y file holds the energy of `(-y, -x)` (witness: a crater centred on a grid point), and rows are labelled with `-y`. |
| C126 | `Model/MainUse.lean`, `Props/MainUse.lean`: the returned dictionary, unpacking it into three names, subscripts, the documentation example, `sensitivity_test.py`, and `main` with two functions patched as the acceptance test does. Proved: keys are the distinct trap names in order; the run of the acceptance test has the exact ice of the reference at all 425 timesteps and meets all 22 values. Refuted: the documentation example raises for every configuration, both sensitivity tests raise, and the acceptance test as written stops with `KeyError`. |
| C127 | `Props/Units.lean`, on the existing model of the column update and of the tables. Multiplying all lengths by `l > 0` (and all times by `m > 0`) commutes with `updateStratCols`, for every rounding that commutes with `l`, and with `makeStratCol`. An example shows that the 0.4 m shielding thickness, which the code hard-codes, must be converted too. |
| C128 | `Props/Idle.lean`: a timestep with no ice, ejecta, overturn or sedimentation is inserted anywhere in the record. The columns gain one empty layer and the table is unchanged. The one exception, an inserted time that becomes the first one younger than the age of the cold trap, is a hypothesis. |
| C129 | `Props/Traps.lean`, `Props/TwoTraps.lean`: two runs with different lists of cold traps. Ejecta, delivered ice, sedimentation depths and overturn are proved the same (`C129_setup`, `C129_ejecta`). Ice and tables are proved the same without ballistic sedimentation (`C129_run_partial`). The full claim is false: `get_melt_frac` (1137-1177) inserts the mixing ratios of all cold traps into the rows of the melt table and then fills by row position, not by value, so a second cold trap changes the melt fraction of the first. `C129_refuted` exhibits two complete runs in which the trap A keeps half of its ice alone and a third of it when B is also simulated. |
| C130 | `Props/TrapOrder.lean`: complete runs with the cold traps permuted. The grid of the melt table depends only on the set of mixing ratios asked for, so here sedimentation may be on. `C130_returns` shows that the permuted run returns whenever the original meets the conditions of C72. |
| C131 | `Model/OldScripts` (`stratCsv`, `recentRead`, `recentDepth`, `recentDepths`) mirrors `find_recent_layer.py` on the file-system model of C60. `C131_youngest` (which row is taken, and exactly when `IndexError` is raised), `C131_bottom` (the number is the thickness of that layer and all above it). Refuted: `C131_top_refuted` (never the depth where the ice begins), `C131_layout_refuted` (`TypeError` on the column order written now), `C131_files_refuted` (`FileNotFoundError` on a directory saved by a run, via `C60_saved`). The full statement stays in view in properties.jsonl. |
| C132 | `ensemblePlot`, `EnsembleFinds` mirror `ensemble_plot.py`. `C132_curves`, `C132_quits`; refuted: `C132_files_refuted` (saving a run adds no file that the search pattern matches). |
| C133 | The sort is a parameter of the data (`sortAges`, assumed only to permute and to order by age). `C133_setup` and `C133_ties` compare two runs with two sorts, for one cold trap at a time; ejecta and ballistic sedimentation are sums and maxima over the craters of a timestep, which do not depend on their order. Refuted for tied basins with basin ice: `C133_basins_refuted` (a lawful generator with increasing speeds). Labels of the stratigraphy are not compared, ties change their order. |
| C134 | `Model/Calls.lean`: Python's binding of arguments (no `*args`, no `**kwargs`, no positional-only or keyword-only parameters, none of which the figure functions use), the parameters of the public functions of plot_figs.py, the calls of the two JGR notebooks and the names of moonpies.py, copied as data. `C134_binds`: a call starts exactly if `Spec.CallFits`, each parameter then holds its own argument (`Spec.Received`), any other call is a `TypeError`. `C134_figures_partial`: every call but S5 to S8 binds for all values. `C134_supplement_refuted`: S5 to S8 pass `fsave` to functions that take only `datedir`. `C134_missing_refuted`: nine names older scripts use are gone. |
| C135 | `Model/PctTable.lean`: `ice_pct_fig7`, `ice_pct_fig8` on top of the figure of C120; the file written and read back keeps the cells, fills short columns with NaN and turns seeds into texts (library behaviour, trusted); a cell stands for the number its text writes; decimal rounding is exact with ties to even (NumPy rounds the binary number, a difference of one unit in the last place for ties only). `Spec/PctTable.lean`: nearest number with d decimals, `PctShown`, `ColShown`. `C135_shown`, `C135_monotone`, `C135_written` (files of a run give percentages in [0, 100]), `C135_fig7`, `C135_fig8`; `C135_digits_refuted`: 12.746 is shown as 12.8. |
| C136 | `Model/Impact.lean` as in C98; `Spec/MeanIce.lean` takes means over independent draws one after the other (`meanPick`, `meanDraws`, `meanShower`), with the draws as in C98 and any law of speeds bounded away from zero; that the draws of the generator have these laws and are independent is trusted | `C136_drawn`: inverted bind by bind, the mass of an impactor is unique by C39; `C136_mean`: linearity by induction on the number of draws, C26 for the rounding, masses bounded since lengths decrease with speed; `C136_laws`: the laws of C107 qualify; `C136_share_refuted`, `C136_shipped_refuted` |
| C137 | `Model/CountFl.lean`: the code of C26, C40 and C98 with every operation followed by its rounding; a draw of `rng.random` is `k/2⁵³`, all `k < 2⁵³` alike (trusted numpy behaviour); no underflow | `C137_chance`, `C137_wet`: the draws below a chance are counted; `C137_bias`: Hermite's identity for the floors, shifted by the rounding error; `C137_neighbour_partial`, `C137_steps`, `C137_sizes_partial`, `C137_exclusive`: monotone rounding that keeps whole numbers; `C137_shipped`; `C137_neighbour_refuted`, `C137_sizes_refuted` |
| C138 | `Verif/Model/DocUse.lean`: the lookup of `plot_stratigraphy` (`parents[1]`, run name, seed) and the configuration it reads; the configuration of `Model/Config.lean`, the text reader of `Model/PyText.lean` and the file system of `Model/Files.lean`. The globbing of the directory is an argument (`found`, in the order the operating system gives). | `C138_looks` (the table is found iff run name = last directory of `out_path`), `C138_default_partial` (no `out_path`: always found), `C138_given_refuted`, `C138_readme_refuted`, `C138_home` (`~` expanded for tables, not for figures), `C138_names_refuted` (`config_<run_name>.py` is not written), `C138_shared` (when two runs share a directory), `C138_only` (an argument changes only its own parameter), `C138_quickstart` (the example file read for every rounding and machine). |
| C139 | `Verif/Model/MainFrom.lean`: `runFrom` is `main` from the dated table on (moonpies.py:60-77), made of the existing stages. | `C139_run_from`: a run is dating followed by `runFrom`. Spec (`Verif/Spec/Aloof.lean`): `ReachesNone` by great-circle distance, `BringsNoIce`, `FamiliarTemp`. `C139_no_trace_partial`: such a row at any position may be removed, results and errors alike; its warmth must occur elsewhere. `C139_crater`: no such condition for craters. `C139_all`: all such rows at once. `C139_warmth_refuted`: a basin at 160 K that reaches nothing turns the loss from 1/2 to 1/3. `C139_shipped`: whole runs on the shipped files, for any generator and seed. `C139_idle`: 6 of the shipped craters and 20 of the 27 basins. |
| C140 | No new model: `runMain` and `runFrom` of `Verif/Model/Main.lean` and `Verif/Model/MainFrom.lean`. Spec (`Verif/Spec/Places.lean`): a move of latitudes and longitudes `KeepsDistances` if all angles seen from the centre stay; `moveData` applies it to centres and shadowed regions of all listed craters and basins. | `C140_moved`: same results and errors for every such move; the sort by age must treat moved rows like unmoved ones, as `sortDesc` does. `C140_moves`: turning about the axis, mirroring, exchanging the poles, and writing longitudes in another range (0 to 360 for -180 to 180) are such moves. `C140_symmetric`, `C140_longitudes`: whole runs. |
| C141 | `runMain`; `Spec.Usable` lists what the configuration and files must contain; `chosen` is the default configuration with other cold traps and modes | `C141_needs`: a completed run is unwound stage by stage, each stage giving one requirement (the error bars through `C28_raises_iff`, the volcanic mode through C46, the names through the distance lookup and the table writer). `C141_choices`: with the shipped files the requirements are also sufficient, by C72 |
| C142 | `updateStratCols`, `runMain`; `Spec.sink` works a pile of layers (ice under ejecta) from the top, `Spec.layDown` grows the pile by events, `Spec.layDownFirst` does so in the documented order | `C142_column`: the downward loop over array indices is `sink` on the reversed first layers (`garden_sink`), and one turn of the update loop is one event (`updateIceCol_pile`). `C142_run` for whole runs, `C142_resume` for interruptions. `C142_order`, `C142_order_matters`: the documented order gives the same just without ballistic sedimentation in general |
| C143 | `runMain`, `solarWindIce`; `Spec.inMassUnits` multiplies all densities and the micrometeorite rate of the configuration by a factor | `C143_run`: impactor sizes need the ratio of densities only (`mass_len`), so the masses of all supplies scale and the thicknesses of ice stay (`mass_impact`, `mass_volc`, `C143_delivered`). `C143_solar`: solar wind ice is divided by the factor; `C143_solar_depends` shows for the default configuration that it is not zero |
| C144 | `Model/IntCols`: `gardenIntColumn`, `erodeIntCannon` with integer arrays, numbers truncated on storing; `Spec.refIntErosion` likewise for the reference of the tests | `C144_garden`, `C144_erode`, `C144_reference`: equal to the exact functions at the depth rounded up, by induction on layers (`⌈r - x⌉ = ⌈r⌉ - x`). `C144_blind`: any depth of up to 1 m passes the comparison |
| C145 | `gardenIceColumn`, `gardenIntColumn`; `Spec.dig` is the rule by which the expected columns of `test_garden_ice_column` come out | `C145_tests_refuted`: the code gives other columns for the third and fourth. `C145_more` (layerwise, by induction with depths `d ≤ d'`), `C145_bound`, `C145_same` |
| C146 | The whole run (`runMain`). The spec (`Spec/InUse.lean`) lists every field of the configuration and every file, each with the switch that says whether it is used | `C146_run`: equality of runs, exceptions included, from a lemma per module. `C146_comets`: comets off, both runs complete. `C146_off_refuted`: with comets off, a zero `jfc_speed_sd` still stops every run (finding 59) |
| C147 | The pile of events of C142, to which whole runs are equal; `Spec.exposure` adds up how far later events reach below the ejecta on a layer | `C147_layer`: upper and lower bound of a layer. `C147_kept`, `C147_lost`: the extreme cases. `C147_run`: the bounds for every cold trap of a complete run. `C147_safe`: runs without sedimentation; example: 20.25 cm of ejecta in the default run |
| C148 | The run of C72 with settings replaced as in `Spec/Products.lean` (`tradeArea`, `tradeCtype`, `tradeMagma`, `tradeBrown`, `tradeEffcy`, `withHop`). | `C148_area`, `C148_ctype`, `C148_magma`, `C148_brown`, `C148_effcy`: equal runs, exceptions included, for every non-zero factor. `C148_hop`: with the table of Moores and both values non-zero the overall hop efficiency drops out. `C148_hop_off`: without it (and without separate volcanic efficiency) the ice delivered is proportional to it. Over the reals; in floats the runs agree up to rounding. |
| C149 | `iceMicrometeorites`, `smallImpactorIce`, `smallCraterIce`, `craterPop`, `fluxScaling`, `getTimeArray`. Spec: `cratersSince` (Ivanov's chronology), `yearsAtToday`, `overcount`, `yearsCounted`. | `C149_true`: the integral of the flux scaling is `yearsAtToday`. `C149_sum` and one theorem per source: totals are today's yearly rate times `yearsCounted`. `C149_over`, `C149_finer`, `C149_limit`: too many, fewer with shorter timesteps, in the limit right. `C149_shipped`: 3.4 to 3.6 percent too many with the default times. `C149_raises`: exceptions do not depend on the timestep. Times are taken to end at 0 with a timestep dividing the span (C19 says what else happens). |
| C150 | The pile of C142 (`layDown`), complete runs, `overturnDepth`, and the pile of C110 for Cannon et al. Spec: `surplus`, the ice of an event out of reach of its own gardening. | `C150_total`, `C150_run`: the ice kept is at most the sum of surpluses. `C150_thin`, `C150_run_thin`: deliveries thinner than gardening is deep are kept only in timesteps with ejecta. `C150_vanishes`: all is lost in the limit of short timesteps. `C150_depths`: depths add up to at least the present depth per timestep, or to the same for every timestep as in Cannon et al. `C150_cannon`: a steady supply leaves the same there. |
| C151 | No new model: `runFrom` (`Model/MainFrom`) on a table and on the same table without some rows. | `C151_protects`: distances and thicknesses of the rows kept do not change (`Lemmas/Protect`), so every layer of ejecta is a partial sum of non-negative terms; then C73, and totality for the run without the rows. `C151_run`: whole runs. `C151_shipped`: shipped files without their craters. `C151_sedimentation`: a crater that takes half of the ice once ballistic sedimentation is on. |
| C152 | `gardenIceColumn`, `erodeIceCannon`, `runMain`; distance of two columns: `Spec.gap` | `C152_lipschitz` (any two columns and depths), `C152_deeper` (one column, two depths), `C152_attained` (the factor 2^n − 1 is reached for every n), `C152_cliff` (layers as thick as the depth are all lost; 2^−k less depth saves all but k of them), `C152_cannon` (factor 1 for one step of the other erosion), `C152_run` and `C152_shipped` (whole runs with two erosion rates) |
| C153 | `gardenIceColumn`, `erodeIceCannon` with rounding `fl`; doubles are `roundFloat 52 none` (no underflow) | `C153_garden` (one gardening), `C153_cannon` (one step of erosion), `C153_steps` (all timesteps of a column without ballistic sedimentation), `C153_double` (numbers for doubles), `C153_cliff` (why gardening has no better bound). Depths and ejecta are the same in both computations; sums of columns are not included |
| C154 | `overturnOnly` (a column without ballistic sedimentation), `gardenIceColumn`, `runMain` | `C154_column`, `C154_run_partial` (Cannon erosion; missing: gardening after Costello et al., for which the claim is false), `C154_costello_refuted` (factor 2^n) |
| C155 | `Model/CannonNb.lean`: the functions of `cannon2020.ipynb` over ℝ, NaN as `none`; `assignSlice` is NumPy's assignment with broadcasting. `latlon2xy` is the package's, in km, as the former module `mixing` is not in the repository. | `C155_gc` equal to the package's distance. `C155_doubled`: distances are measured from twice the position of the crater, right only at the pole (`C155_distance_refuted`). `C155_raises`, `C155_grid_cell`: the two cells raise on the grids they are given. `C155_near`, `C155_reaches`: no crater within reach is dropped; `C155_mirror`, `C155_inside_refuted`, `C155_reaches_refuted`, `C155_outside_refuted`: what the selections get wrong. `C155_transient`, `C155_polar`, `C155_nearest` for the rest. |
| C156 | Whole run of `Model/Main.lean` on the data of `Spec/Rename.lean` (`renameData`), with the sort by age assumed to ignore names (`C156_stable`: true of stable sorts). The `ej_sources` column is not compared: its order is that of a Python set. | `C156_columns` any names: same errors, same columns. `C156_tables` plain and different names: tables equal but for labels (`renameLabel`). `C156_named_ice`, `C156_same_name`: why plain and different. Example: Imbrium renamed in the shipped files. |
| C157 | As C156, with the cold traps of the configuration (`renameTraps`) and the keys of the table of ballistic hops (`renameAll`) renamed too. | `C157_columns`: same errors, same columns under the new names. `C157_tables`: same tables but for keys and labels. `C157_hop_table`: an unknown name in a used table of hops stops the run. `C157_same_name`: why names must remain different. Example: Haworth and Faustini exchange names. |
| C158 | Columns of `Model/Column.lean`, runs of `Model/Main.lean`, the pile of C110; means of `Spec/Average.lean`. | `C158_column`: the total of a pile is a convex function of what is delivered (`pileSum_mean`, by induction on timesteps), so the mean of what is left is at least what is left of the mean. `C158_run` ensembles of runs with any generators, seeds and configurations in this mode. `C158_costello` counterexamples to both directions for the other mode. Example: a hundred runs with the shipped files. |
| C159 | `volcanicHead`, `solarWindMass` of `Model/Ice.lean`, `getTimeArray`. | `C159_epoch`: the steps in an epoch counted by ceilings, so its length comes out to less than one timestep, and exactly when it is a multiple, wherever it starts. `C159_head`, `C159_head_error` the volcanic ice of a run; `C159_share` shows what the fractions are shares of. `C159_constant_sun` exact for every dividing timestep. `C159_faint_sun`: with a growing rate two timesteps differ by at most the longer one times the growth, by comparing both with their common refinement. |
| C160 | The draws of `get_ice_stochastic` as in C136; variance and compound Poisson law of `Spec/Spread.lean`. | `C160_variance`: second moments by induction on the speeds, the draws that decide which impactors are wet, the diameters, and the rounding of the count (`round_mean`); the variance of independent impacts by the series of the exponential (`poissonVariance_eq`). The gap between both is exact. Examples: the default configuration, and a case in numbers. |
| C161 | `overturnOnly` (the column loop without ballistic sedimentation), `gardenIceColumn`, `runMain`. Spec/Law: finite laws, means and variances over independent draws, one law per timestep. | `C161_column`: what a column keeps moves no further than the deliveries together, and for such functions the variance is at most the sum of variances (law of total variance by induction over the timesteps). The column is shown to be computed without error for every delivery. `C161_run`: ensembles of runs with any weights, without independence. `C161_costello`: a column of `n + 1` layers that multiplies the variance by `4 ^ n`. |
| C162 | `overturnOnly` and `runMain` as in C110; balances of `Spec/Records.lean`, which count delivered ice and unshielded timesteps and know nothing of layers. | `C162_column`: the layers on top do not depend on those below (`pile_top`), and the total of a pile is a maximum over suffixes (`pileSum_record`, by induction on the timesteps). Layers are differences of such maxima. `C162_run` the same for completed runs, `C162_cannon` for the shipped configuration with any seed. |
| C163 | Runs of `Model/Main.lean` with `withRate`, which changes only `ice_erosion_rate`; balances of C162. | `C163_run`: craters, ejecta and deliveries do not depend on the rate (`iceCols_rate`, `C121_ejecta`), so the ice left is a greatest balance (`C162_run`), which is a maximum of decreasing affine functions of the rate (`balance_rate`). Example: the shipped configuration of cannon mode with any seed. |
| C164 | Runs of `Model/Main.lean` with `withWater`, which changes only the two hydrations and `ice_erosion_rate`; balances of C162. | `C164_run`: impact ice is the impact ice at hydration one times the hydration (`impactIce_scale`, `polarIce_water`), so every column of `iceCols` is affine in both (`iceCols_water`); craters and ejecta stay the same (`C121_ejecta`); the ice left is a greatest balance (`C162_run`), hence a maximum of affine functions of all three. The run must model asteroids with `is_comet` false, as `main` does. Example: the shipped configuration of cannon mode with any seed. |
| C165 | `overturnOnly` with the erosion of `erodeIceCannon` (`Model/Overturn.lean`), as in C162; the column cut into parts is written with `flatMap` and `flatten`. | `C165_equal`, `C165_less`: balances of C162 at the beginning of a timestep are the same (less) after the cut (`CutRows.balance_eq`, `CutRows.balance_le`), those within a timestep lie between those at its ends (`CutRows.le_some`), so the greatest is the same (less). Example with a column that keeps less. Runs also draw other craters with another timestep (C149), which is not part of this. |
| C166 | Runs of `Model/Main.lean` with `RunCfg.default` and `shippedData`, the hydrations changed by `withWater`. | `C166_layers`: the part of a delivery that does not depend on hydration is the share of solar wind and volcanic ice (`iceCols_water_from`), bounded with the shipped files (`default_solar_le` from C47, `default_volc_le` from C45, `hop_bound`); gardening is at least 0.09 m deep (C48), and the gardening of its own timestep bounds what a layer keeps (C147). `C166_dry` sums this up for dry impactors. Example with one seed and cold trap. |
| C167 | Runs of `Model/Main.lean` with `impact_gardening_costello` on, and with it and `ballistic_sed` off (`eroded`). | `C167_run`: the deliveries agree (`iceCols_eroded`) and the ejecta too (C121). Gardening is laying down layers (C142), erosion a pile eaten from the top (C110); `layDown_pile` compares them layer by layer, by induction on the events, `sink_eat` and `sink_eat_top` for one timestep. `layDown_covered` is the opposite case. `C167_deep`: the condition holds from the sum of all ejecta and the erosion of a timestep on. `C167_neither`: two columns, one for each direction. Examples with three events and with the shipped configuration. |
| C168 | `makeStratCol` (`Model/Strat.lean`) and the tables of runs of `Model/Main.lean`. | `C168_depth`: a layer of the table is a block of labelled rows (C20), its depth the thickness of all rows from there on (C22); these are the timesteps from its base on without the thin ones (`total_rows`). The base is a timestep with the label of the layer. `C168_totals` for ice and ejecta. `C168_run`: the timesteps shown are the last ones (`shown_drop`). `C168_default` for the shipped files. Example with a thin timestep between two layers. |
| C169 | `Props/Steady`: `dust` is the ice of micrometeorites (`Spec.micro`), `DrawnIce` what is drawn (`Spec.Drawn`, `Spec.Basins`). The fixed part is quantified before generator, crater table and state. | `C169_steady`: `iceCols` returns the fixed part plus hop efficiency times what is drawn. `C169_dust`: bounds on `exp` give the flux at 3.95 and 4.15 Gyr from below and at 3.9 and 4.25 Gyr from above; hop efficiencies are those of the shipped file. `C169_default`: whole runs, with the bounds of C147 on what is kept. |
| C170 | `Props/Above`: `layDown` (C142) and `pile` (C110) are the columns from the events alone, with a starting column; `withVolcanism` takes the seven settings of volcanism from another configuration; `Quiet` says that no epoch of either holds a time. | `C170_layers`, `C170_pile`: the top layers after some events are those of the events on the top of the starting column. `C170_run`, `C170_run_eroded`: in every completed run the ice from index `k` on is that of the events from `k` on alone. `C170_volcanism`: two runs, from the same craters, random state, polar ice and ejecta. `C170_default`: index 225 is 2 Gyr ago. Erosion combined with sedimentation is not covered by the whole-run theorems. |
| C171 | `Props/Brackets`: `Spec.bracketsFrom` reads the brackets of a text outside strings and comments with four states; `Spec.Match` keeps a stack. Neither uses the tokens or the parser of the model (`Model/PyText`). | `C171_matched`: the parser consumes tokens whose brackets match among themselves, by induction on its steps for the three mutual functions; the brackets of the tokens are those of the text. `C171_refused` is the contraposition for whole files. |
| C172 | `Props/Threshold`: `TwoTables` relates two tables of one column with two least thicknesses and any sources; runs are compared with `ExRel` of C156, so errors are covered. | `C172_columns`: no hypotheses. `C172_totals` for columns (by C21), `C172_run` for physical configurations. `C172_more_layers`: a column whose table has one layer for 0.1 m and two for 0.5 m. |
| C173 | `Props/AfterAge`: `YoungerPart` relates a table without the switch to the rows below the formation row of one with it, without mentioning how either is made. | `C173_table` for columns with falling times, by adding rows one at a time on the old side of a column; `C173_columns` without hypotheses; `C173_run` for physical configurations and names that are not labels. |
| C174 | `Props/BeforeTrap`: `columnOf` is the column of C142's events with times and sources. | `C174_since` for tables, errors included; `C174_column` adds C170; `C174_run` for runs that differ in volcanism, both kinds of gardening; `C174_shackleton` for the shipped files, every seed and lawful generator. |
| C175 | `runMain` of Model/Main and `updateStratCols` of Model/Column, one run, two of its cold traps | Props/Richer: with all sedimentation depths at most 0 each trap evolves by gardening alone (C13), and gardening is monotone in ice and ejecta (C73's step); `C175_columns` for the loop, `C175_sedimentation` a concrete failure with sedimentation on, `C175_run` adds that deliveries grow with the hop efficiency, `C175_no_ejecta` discharges the ejecta hypothesis when both thresholds are within 0 and 1 |
| C176 | `makeStratCol` of Model/Strat and `runMain` of Model/Main | Props/LayerCount: rows without enough ejecta are all labelled `Ice` or dropped, and merging leaves at most one `Ice` between any two other rows (`collapse_length`), so `C176_table`; `C176_run` gives each time with ejecta its own crater or basin, since a row is dated to one time only (C75, `nearest_unique`); `C176_shipped` bounds these by the reach table of C112/C113. The example meets the bound of `C176_table` |
| C177 | `runMain` of Model/Main, its crater table, ejecta and `makeStratCol` | Props/Named: `Named` reads a label as names joined by commas, which is unambiguous for names without commas (`join_inj`); `layers_labelled` gives the layers with a given label from the timesteps, `hsource` inside the proof gives the names of a timestep from the rows of the crater table, `layer_times` that no two layers share a time; a name occurs at one timestep only since a row is dated to one time. `C177_shipped` replaces the thickness by the reach table of C113. Names must be plain (not empty, no comma, none of the three fixed labels) and distinct, which the shipped files meet |
| C178 | `makeStratCol` of Model/Strat, `runMain` of Model/Main, the shipped crater and basin lists | Props/Youngest: all rows since the formation are labelled `Ice` or dropped, so they merge into one layer (`merge_ice`, from C20 and `collapse_length`), whose percentage rounds to exactly 100: `C178_table`; `C178_run` shows with C75 that a time since the formation has no ejecta; `C178_shackleton` takes the sources from the reach table (C113), whose ages are at least 3.7 Ga less their rounding, and the age of Shackleton, at most 3.2 Ga (`shackleton_late`) |
| C179 | `makeStratCol` of Model/Strat and `runMain` of Model/Main | Props/OneStep: a label that one row has is merged with nothing (`merge_single`), so `C179_table`; in a run two timesteps with one name would both be nearest to the age of a crater they name (`join_inj` of C177), so `C179_run`; `C179_shipped` adds that on the shipped files whatever is not named leaves no ejecta at all (C113) |
| C180 | `makeStratCol` of Model/Strat and `runMain` of Model/Main | Props/IceLayer: the rows of a layer labelled `Ice` each have more than the least thickness of ice and no more than that of ejecta (`merge_block`, `rowLabel_spec`), so `C180_table`; `C180_run` adds that no joined list of plain names is `Ice`; `C180_shipped` takes from C113 that on the shipped files a crater or basin leaves no ejecta or more than 1 mm |
| C181 | `makeStratCol` of Model/Strat, `runMain` of Model/Main, `ages2time` of Model/AgesToTime | Props/Superposition: times of layers descend (`layer_times` of C177) and depths are sums from a layer to the top (C22), so `C181_table`; the time nearest to an age never decreases with the age, ties included (`nearest_mono`), and C177 gives the times of the layers that name two craters, so `C181_run` |
| C182 | `runMain` of Model/Main on the shipped crater and basin lists | Props/AllEjecta: each layer holds the ejecta of those it names (C179), layers that name none hold no ejecta (C113, C180, C24), and each crater is named in one layer only (C177), so the double sum over layers and craters can be exchanged (`sum_swap`); the total over timesteps is C21, where every timestep that is not counted has no ejecta at all (C113) |
| C183 | `runMain` of Model/Main | Props/Correlate: the layer that names a crater has the time nearest to the age of the crater (C177), which is the same for all cold traps, and in each table the order of layers is the order of their times (C181 and `layer_times`), so `C183_run` |
| C184 | `runMain` of Model/Main, `getTimeArray` and `randomizeAges` | Props/LayerAge: ages are multiples of the timestep (C28), and a multiple within the range of the times widened by `cfg.rtol` is one of the times, hence its own nearest time (`nearest_grid`); with C177 and C181 this gives `C184_run`. A million timesteps is where the tolerance would reach the next multiple |
| C185 | `runMain` of Model/Main, `cutAtAge` of Model/Strat, `getTimeArray` and `randomizeAges` | Props/SinceTrap: times and ages are multiples of the timestep, for which the widened range is the range (`range_grid`) and the widened cut is a comparison of ages (`cut_grid`); with C177, C184 and C24 this gives `C185_run`; `C185_shipped` replaces the thickness by the reach table (C113) |
| C186 | Cold traps named in each other's tables, on the model of a whole run of C185. `Reached` says that both are cold traps and that the table of the second names the first; chains are its transitive closure. | `C186_run`: by induction on the chain from C185 (a named crater is not older than the cold trap); the layer has the age as time by C184 and the mark by C185. `C186_shipped`: from `C185_shipped` for two cold traps in reach of each other; `mutual_reach` gives such a pair. |
| C187 | Two whole runs on the shipped files, with their own seeds, generators, cold traps and settings of ice, sharing only the times of the run, the ejecta scaling and `strat_after_age`. | `C187_shipped`: both tables are described by `C185_shipped` in terms of the ages alone, and the times of layers by C184. |
