import Verif.Model.Impact
import Verif.Model.Column
import Verif.Model.Strat

/-!
# A complete run

`/repo/moonpies/moonpies.py` 24-77 (`main`), 102-141, 230-378, 812-863, 2606-2638, composing the
other models.  Writing files is in `Model/Files.lean`; verbose printing and clearing the caches
have no effect on the result (C61).
-/

namespace MoonPIES

/-- How a run can stop: a Python exception, or an infinite ejecta thickness (NumPy continues
with `inf`, which this model does not follow). -/
inductive RunErr where
  | py (e : PyErr)
  | infinite
  deriving DecidableEq

/-- A call that can raise. -/
def liftPy {α : Type} : Except PyErr α → Except RunErr α
  | .ok a => .ok a
  | .error e => .error (.py e)

/-! ## Crater table -/

/-- A row of the crater or basin file: `diam` in km, ages in Gyr (moonpies.py:299-378);
`psr` is `(psr_lat, psr_lon)`, absent from the basin file. -/
structure RawCrater where
  cname : String
  lat : ℝ
  lon : ℝ
  psr : Option (ℝ × ℝ)
  diam : ℝ
  age : ℝ
  age_low : ℝ
  age_upp : ℝ

/-- Unit conversions of `read_crater_list` and `read_basin_list` (moonpies.py:328-335, 371-377)
with the columns added by `get_crater_basin_list` (moonpies.py:247-254). -/
noncomputable def readRow (isbasin : Bool) (icy : String) (r : RawCrater) :
    CraterAge ℝ CraterCols :=
  { age := r.age * 1e9, ageLow := r.age_low * 1e9, ageUpp := r.age_upp * 1e9,
    rest := { crater := { cname := r.cname, lon := r.lon, lat := r.lat,
                          rad := r.diam * 1000 / 2, isbasin := isbasin, psr := r.psr },
              icy := icy } }

/-- The files read by a run, and the two choices outside the code's control: the order of rows
with equal age after an unstable sort, and the order of a set. -/
structure RunData where
  craters : List RawCrater
  basins : List RawCrater
  /-- ballistic hop table -/
  hop : PyDict ℝ
  /-- solar luminosity file, rows of (age of the Sun in Gyr, luminosity) -/
  lum : List (ℝ × ℝ)
  /-- volcanic species file -/
  nk : List (ℝ × ℝ)
  melt : MeltTable ℝ
  sortAges : CraterTable → CraterTable
  sortNk : List (ℝ × ℝ) → List (ℝ × ℝ)
  setOrder : List (List Char) → List (List Char)

variable {σ : Type}

/-- `get_crater_basin_list` (moonpies.py:230-260) with `random_icy_basins` (moonpies.py:263-296)
and `randomize_crater_ages` (moonpies.py:1934-1955). -/
noncomputable def craterBasinList (g : Gen σ) (c : RunCfg) (d : RunData) (s : σ) :
    Except PyErr (CraterTable × σ) := do
  let craters := d.craters.map (readRow false "no")
  let (u, s) := g.random d.basins.length s
  let basins := List.zipWith (fun r icy => readRow true icy r) d.basins (icyBasins c.imp u)
  let df := craters ++ basins
  let (z, s) := g.truncnormEach (df.map (fun r => (truncA r, truncB r))) s
  let df ← randomizeAges d.sortAges c.timestep (fun i => z.getD i 0) df
  .ok (df, s)

/-! ## Ejecta -/

/-- Column `i` of a 2D array given by rows. -/
def column {α : Type} (m : List (List α)) (i : Nat) : List α := m.filterMap (fun row => row[i]?)

/-- A finite value. -/
def finiteOf : Flt → Except RunErr ℝ
  | .fin x => .ok x
  | _ => .error .infinite

/-- `get_ejecta_thickness_matrix` (moonpies.py:736-759): rows are craters. -/
noncomputable def thicknessMatrix (c : RunCfg) (df : CraterTable)
    (dists : List (List (Option ℝ))) : Except RunErr (List (List ℝ)) :=
  (df.zip dists).mapM (fun p =>
    p.2.mapM (fun d => finiteOf (ejThickness c.ej d p.1.rest.crater.rad)))

/-- Rows of one cold trap for `get_ejecta_thickness_time`. -/
def ejRows (df : CraterTable) (thick : List ℝ) : List (EjRow ℝ) :=
  List.zipWith (fun r t => { cname := r.rest.crater.cname, age := r.age, thick := t }) df thick

/-! ## Columns -/

/-- `get_ice_cols_time` (moonpies.py:812-863) with the ice it starts from. -/
noncomputable def iceCols (g : Gen σ) (c : RunCfg) (d : RunData) (df : CraterTable)
    (time : List ℝ) (s : σ) : Except PyErr (List (List ℝ) × σ) := do
  let (polar, s) ← polarIce g c (readLuminosity d.lum) df time s
  let volc ← volcanicIce c.volc_mode c.ice c.head (fun x => (roundHalfEven x : ℝ)) d.sortNk
    RunCfg.rtol c.timestep time d.nk
  let rows ← iceColsTime c.cols d.hop polar volc
  .ok (rows, s)

/-- The dictionary comprehension of `init_strat_columns` (moonpies.py:137-140): `i` is the index
of the first remaining name. -/
def buildCols (ice : List (List ℝ)) (ej : List (List ℝ × List String)) :
    Nat → List String → PyDict (StratCol ℝ) → Except PyErr (PyDict (StratCol ℝ))
  | _, [], acc => .ok acc
  | i, name :: rest, acc => do
    let e ← pyGet ej i
    buildCols ice ej (i + 1) rest (acc.set name { ice := column ice i, ej := e.1, src := e.2 })

/-- `init_strat_columns` (moonpies.py:102-141); `thick` is the thickness matrix. -/
noncomputable def initStratCols (g : Gen σ) (c : RunCfg) (d : RunData) (time : List ℝ)
    (df : CraterTable) (thick : List (List ℝ)) (s : σ) :
    Except PyErr (PyDict (StratCol ℝ) × σ) := do
  let ej ← (List.range c.coldtrap_names.length).mapM (fun i =>
    ejectaThicknessTime RunCfg.rtol c.thickness_min time (ejRows df (column thick i)))
  let (ice, s) ← iceCols g c d df time s
  let cols ← buildCols ice ej 0 c.coldtrap_names []
  .ok (cols, s)

/-- `get_bsed_depth` (moonpies.py:1256-1307): depth and fraction with one row per time. -/
noncomputable def bsedArrays (c : RunCfg) (d : RunData) (time : List ℝ) (df : CraterTable)
    (dists : List (List (Option ℝ))) (thick : List (List ℝ)) :
    Except PyErr (List (List ℝ) × List (List ℝ)) := do
  let traps := (List.range c.coldtrap_names.length).map (fun i => (column dists i, column thick i))
  let out ← bsedDepth c.bsed d.melt (mixingRatio c.mixing_ratio_petro c.mixing_ratio_a
    c.mixing_ratio_b) time (df.map (·.age)) (df.map (·.rest.crater.isbasin)) traps
  .ok ((List.range time.length).map (column (out.map (·.1))),
    (List.range time.length).map (column (out.map (·.2))))

/-! ## Tables -/

/-- The four arrays of a cold trap as rows (moonpies.py:2569-2571). -/
def toSteps (time : List ℝ) (col : StratCol ℝ) : List (Step ℝ) :=
  List.zipWith (fun t (p : ℝ × ℝ × String) => { time := t, ice := p.1, ejecta := p.2.1, src := p.2.2 })
    time (col.ice.zip (col.ej.zip col.src))

/-- Ages of the rows named `n`; a missing name raises `KeyError`. -/
def rowsNamed (df : CraterTable) (n : String) : Except PyErr (List (String × ℝ)) :=
  match df.filter (fun r => decide (r.rest.crater.cname = n)) with
  | [] => .error .keyError
  | rows => .ok (rows.map (fun r => (n, r.age)))

/-- `df.set_index('cname').loc[list(cfg.coldtrap_names), 'age'].items()` (moonpies.py:2624): a
missing name raises `KeyError`, a repeated one gives all its rows. -/
def trapAges (df : CraterTable) (names : List String) : Except PyErr (List (String × ℝ)) := do
  let rows ← names.mapM (rowsNamed df)
  .ok rows.flatten

/-- The data frames made by `format_csv_outputs`. -/
structure CsvOut where
  /-- `ej_sources` column -/
  labels : List String
  /-- ejecta columns -/
  ej : PyDict (List ℝ)
  /-- ice columns -/
  ice : PyDict (List ℝ)
  /-- stratigraphy tables -/
  strat : PyDict (List (StratRow ℝ))

/-- Loop of `format_csv_outputs` (moonpies.py:2625-2630). -/
noncomputable def formatLoop (c : RunCfg) (time : List ℝ) (cols : PyDict (StratCol ℝ)) :
    List (String × ℝ) → CsvOut × List (List String) → Except PyErr (CsvOut × List (List String))
  | [], acc => .ok acc
  | (name, age) :: rest, (out, srcs) => do
    let col ← cols.get name
    let table ← makeStratCol c.thickness_min RunCfg.rtol c.strat_after_age age (toSteps time col)
    formatLoop c time cols rest
      ({ out with ej := out.ej.set name col.ej, ice := out.ice.set name col.ice,
                  strat := out.strat.set name table }, srcs ++ [col.src])

/-- `format_csv_outputs` (moonpies.py:2606-2638); `np.stack` of no arrays raises. -/
noncomputable def formatCsv (c : RunCfg) (d : RunData) (time : List ℝ) (df : CraterTable)
    (cols : PyDict (StratCol ℝ)) : Except PyErr CsvOut := do
  let ages ← trapAges df c.coldtrap_names
  let (out, srcs) ← formatLoop c time cols ages (⟨[], [], [], []⟩, [])
  if srcs = [] then .error .valueError
  else
    let stacked := (List.range time.length).map (column srcs)
    let labels := getAllLabels d.setOrder (stacked.map (fun row => row.map String.toList))
    .ok { out with labels := labels.map String.ofList }

/-! ## `main` -/

/-- What `main` has computed before its main loop (moonpies.py:54-70). -/
structure Setup (σ : Type) where
  time : List ℝ
  df : CraterTable
  cols : PyDict (StratCol ℝ)
  bsedDepth : List (List ℝ)
  bsedFrac : List (List ℝ)
  overturn : List ℝ

/-- First part of `main` (moonpies.py:54-70). -/
noncomputable def setup (g : Gen σ) (c : RunCfg) (d : RunData) : Except RunErr (Setup σ) := do
  let s := g.init c.seed
  let time ← liftPy (getTimeArray c.timestart c.timeend c.timestep)
  let (df, s) ← liftPy (craterBasinList g c d s)
  -- `df[~df.isbasin].reset_index(drop=True)`: the result is not assigned (moonpies.py:60-61)
  let _ := if c.ejecta_basins then df else df.filter (fun r => !r.rest.crater.isbasin)
  let dists ← liftPy (coldtrapDists c.ej (df.map (·.rest.crater)) c.coldtrap_names)
  let thick ← thicknessMatrix c df dists
  let (cols, _) ← liftPy (initStratCols g c d time df thick s)
  let (bd, bf) ← liftPy (bsedArrays c d time df dists thick)
  .ok { time := time, df := df, cols := cols, bsedDepth := bd, bsedFrac := bf,
        overturn := overturnDepth c.overturn time }

/-- The ejecta thickness above which a layer shields the ice: default argument `ej_shield=0.4`
of `erode_ice_cannon` (moonpies.py:1384). -/
noncomputable def ejShield : ℝ := 0.4

/-- `main` (moonpies.py:24-77) up to saving: the data frames that are saved and, as `strat`,
the value returned. -/
noncomputable def runMain (g : Gen σ) (c : RunCfg) (d : RunData) : Except RunErr CsvOut := do
  let st ← setup g c d
  let cols ← liftPy (updateStratCols id ejShield c.impact_gardening_costello c.coldtrap_names
    st.cols st.overturn st.bsedDepth st.bsedFrac)
  liftPy (formatCsv c d st.time st.df cols)

end MoonPIES
