import Verif.Model.PlotColumn

/-!
# Figures of stratigraphy columns

`plot_stratigraphy` (`/repo/moonpies/plotting.py` 56-168) from the files to the axes, their limits and the
table of ice percentages, and `strat_cols_bsed`, `strat_cols_seeds`
(`/repo/notebooks/figure_scripts/plot_figs.py` 738-786) up to the axes that get a letter.  How matplotlib
lays out the legend is left out.
-/

namespace MoonPIES

variable {K : Type} [Field K] [LinearOrder K]

/-- An axis of the figure: the colour bar (plotting.py:94), an axis of row `r` (plotting.py:100), or the
second axis that `plot_strat` puts on one (plotting.py:191). -/
inductive FigAx
  | bar
  | panel (r col : Nat)
  | twin (r col : Nat)
deriving DecidableEq, Repr

/-- A column to be drawn: its place and its file. -/
structure ColSpec where
  col : Nat
  seed : Int
  trap : String
deriving DecidableEq, Repr

/-- The two inner loops of `plot_stratigraphy` (plotting.py:103-105, 125). -/
def colSpecs (seeds : List Int) (traps : List String) : List ColSpec :=
  seeds.zipIdx.flatMap fun p => traps.zipIdx.map fun q => ⟨axisOf traps.length p.2 q.2, p.1, q.1⟩

/-- `strat.depth.max()` (plotting.py:119); `none` is NaN, the maximum of no rows. -/
def colDepth (d : Drawn K) : Option K :=
  match d.strat with
  | [] => none
  | r :: rs => some (maxOf r.depth (rs.map (·.depth)))

/-- `if strat.depth.max() > maxdepth: maxdepth = strat.depth.max()` (plotting.py:118-119). -/
def deeper (m : K) (d : Drawn K) : K :=
  match colDepth d with
  | none => m
  | some x => if m < x then x else m

/-- `out_icepct[key] = value` (plotting.py:130). -/
def setPct (k : String × Int × String) (v : List (Option K)) :
    List ((String × Int × String) × List (Option K)) → List ((String × Int × String) × List (Option K))
  | [] => [(k, v)]
  | e :: l => if e.1 = k then (k, v) :: l else e :: setPct k v l

/-- What is drawn of one run. -/
structure RunRow (K : Type) where
  /-- the columns of which there is a file -/
  cols : List (ColSpec × Drawn K)
  /-- limit of the depth axes of the row -/
  limit : K

/-- The figure. -/
structure StratFigure (K : Type) where
  /-- `fig.axes`: in the order in which they are made -/
  axes : List FigAx
  rows : List (RunRow K)
  /-- titles: axis, cold trap and formation age (plotting.py:122-124) -/
  titles : List (Nat × String × K)
  /-- the table written to `fsave_icepct` -/
  icepct : List ((String × Int × String) × List (Option K))

/-- One panel (plotting.py:106-129); a missing file is skipped. -/
def drawCell (draw : List (StratRow K) → Except PyErr (Drawn K))
    (load : Int → String → Option (List (StratRow K))) (sp : ColSpec) :
    Except PyErr (Option (ColSpec × Drawn K)) :=
  match load sp.seed sp.trap with
  | none => .ok none
  | some sdf => do
    let d ← draw sdf
    .ok (some (sp, d))

/-- The columns of one run (plotting.py:103-129). -/
def drawRun (draw : List (StratRow K) → Except PyErr (Drawn K))
    (load : Int → String → Option (List (StratRow K))) (specs : List ColSpec) :
    Except PyErr (List (ColSpec × Drawn K)) := do
  let cells ← specs.mapM (drawCell draw load)
  .ok (cells.filterMap id)

/-- The loop over runs (plotting.py:98-150); `m` is the depth reached so far. -/
def drawRuns (draw : List (StratRow K) → Except PyErr (Drawn K))
    (load : String → Int → String → Option (List (StratRow K))) (specs : List ColSpec) :
    K → List String → Except PyErr (List (RunRow K))
  | _, [] => .ok []
  | m, run :: rest => do
    let cols ← drawRun draw (load run) specs
    let m' := cols.foldl (fun m p => deeper m p.2) m
    let rows ← drawRuns draw load specs m' rest
    .ok (⟨cols, m'⟩ :: rows)

/-- The axes of the figure in the order in which they are made. -/
def figAxes (ncols : Nat) (rows : List (RunRow K)) : List FigAx :=
  .bar :: rows.zipIdx.flatMap fun p =>
    (List.range ncols).map (FigAx.panel p.2) ++ p.1.cols.map fun q => FigAx.twin p.2 q.1.col

/-- `plot_stratigraphy` (plotting.py:84-168) with given runs, seeds and cold traps.  `add_gridspec`
raises `ValueError` unless there is a column. -/
def stratFigure (draw : List (StratRow K) → Except PyErr (Drawn K))
    (sortDepth : List (CleanRow K) → List (CleanRow K))
    (load : String → Int → String → Option (List (StratRow K))) (runs : List String) (seeds : List Int)
    (traps : List String) : Except PyErr (StratFigure K) := do
  if seeds.length = 0 ∨ axisCols seeds.length traps.length = 0 then .error .valueError
  else
    let rows ← drawRuns draw load (colSpecs seeds traps) 0 runs
    .ok {
      axes := figAxes (axisCols seeds.length traps.length) rows
      rows := rows
      titles := match rows with
        | [] => []
        | r :: _ => r.cols.map fun p => (p.1.col, p.1.trap, p.2.age)
      icepct := (runs.zip rows).foldl (fun d rr => rr.2.cols.foldl (fun d p =>
        setPct (rr.1, p.1.seed, p.1.trap) ((sortDepth p.2.clean).map (·.icepct)) d) d) [] }

/-- Axes with the letters A, B, C in `strat_cols_seeds` (plot_figs.py:777-780). -/
def seedLetters (axes : List FigAx) : Except PyErr (List FigAx) :=
  [1, 5, 9].mapM fun i => match axes[i]? with
    | none => .error .indexError
    | some a => .ok a

/-- The row an axis is in; the colour bar is below all rows. -/
def axRow : FigAx → Option Nat
  | .bar => none
  | .panel r _ => some r
  | .twin r _ => some r

/-- Axes with the letters A and B in `strat_cols_bsed` (plot_figs.py:753-756): the second is the first
axis after it with its lower edge elsewhere.  Axes have the same lower edge if they are in the same row.
If there is none (`none`) `next` raises `StopIteration`. -/
def bsedLetters (axes : List FigAx) : Except PyErr (FigAx × Option FigAx) :=
  match axes[1]? with
  | none => .error .indexError
  | some a => .ok (a, (axes.drop 2).find? fun b => decide (axRow b ≠ axRow a))

end MoonPIES
