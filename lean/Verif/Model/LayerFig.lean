import Verif.Model.Agg
import Verif.Model.Rounding

/-!
# Figure of the distribution of ice layers

`/repo/notebooks/figure_scripts/plot_figs.py` 380-423 (`kde_layers`): the rows of the aggregated
table of layers that are drawn.  The density estimates and histograms are seaborn's.
-/

namespace MoonPIES

variable {K : Type} [Field K] [LinearOrder K] [FloorRing K]

/-- A row of the flattened table of layers (aggregate.py:25-29) without its name of the run; `none`
is NaN. -/
structure LayerRow (K : Type) where
  coldtrap : String
  ice : Option K
  depth : Option K
  time : Option K
  deriving DecidableEq, Repr

/-- A flattened row whose statistics are `ice`, `depth` and `time`, with its name of the run. -/
def layerRow (r : FlatRow K) : String × LayerRow K :=
  (r.runs, ⟨r.coldtrap, r.vals[0]?.join, r.vals[1]?.join, r.vals[2]?.join⟩)

/-- `round` to one decimal as numpy does it: times ten, nearest integer, divided by ten. -/
def round1 (x : K) : K := (roundHalfEven (x * 10) : K) / 10

/-- A layer ready to be drawn. -/
structure KdeRow (K : Type) where
  coldtrap : String
  runs : String
  ice : K
  depth : K
  time : K
  /-- `depth_top` -/
  top : K
  deriving DecidableEq, Repr

/-- A value below 0.1 becomes NaN (plot_figs.py:404-405); comparing NaN is false. -/
def dropSmall : Option K → Option K
  | none => none
  | some x => if x < 1 / 10 then none else some x

/-- What becomes of one row (plot_figs.py:403-409): rounding, small values to NaN, `dropna` over all
columns, `depth_top` and its `clip`. -/
def cleanRow (r : String × LayerRow K) : Option (KdeRow K) :=
  let ice := dropSmall (r.2.ice.map round1)
  let depth := dropSmall (r.2.depth.map round1)
  match ice, depth, r.2.time with
  | some i, some d, some t => some ⟨r.2.coldtrap, r.1, i, d, t, max (d - i) (1 / 10)⟩
  | _, _, _ => none

/-- The cleaned table (plot_figs.py:401-409). -/
def kdeClean (names news : List String) (layers : List (String × LayerRow K)) : List (KdeRow K) :=
  (renameRuns names news layers).filterMap cleanRow

/-- `l[::k]` for a positive `k`. -/
def everyNth {α : Type} (k : Nat) (l : List α) : List α :=
  (l.zipIdx.filter (fun p => p.2 % k = 0)).map (·.1)

/-- The rows drawn for one cold trap (plot_figs.py:414-416). -/
def kdeTrap (rows : List (KdeRow K)) (trap : String) : List (KdeRow K) :=
  let df := rows.filter (fun r => r.coldtrap = trap)
  if df.length > 1000 then everyNth 300 df else df

/-- The rows drawn for one cold trap, from the aggregated table `t` (plot_figs.py:401-416); `pairs`
as in `flattenAgg`. -/
def kdeFigure (names news : List String) (pairs : List (String × String))
    (t : List (AggKey × List K)) (trap : String) : List (KdeRow K) :=
  kdeTrap (kdeClean names news ((flattenAgg ["ice", "depth", "time"] pairs t).map layerRow)) trap

end MoonPIES
