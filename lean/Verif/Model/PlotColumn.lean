import Verif.Model.PlotStrat

/-!
# From the stratigraphy file of a run to the picture of a column

The loop body of `plot_stratigraphy` (`/repo/moonpies/plotting.py` 104-119, 127-129).
-/

namespace MoonPIES

variable {K : Type} [Field K] [LinearOrder K]

/-- The columns of a stratigraphy file that `clean_up_strat_col` uses. -/
def StratRow.toP (r : StratRow K) : PRow K :=
  { ice := r.ice, ejecta := r.ejecta, label := r.label, time := r.time, depth := r.depth }

/-- What `plot_stratigraphy` makes of one file. -/
structure Drawn (K : Type) where
  /-- the formation time in the title -/
  age : K
  /-- the cleaned table, whose percentages are also written to a file -/
  clean : List (CleanRow K)
  /-- the areas drawn -/
  areas : List (Area K)
  /-- the rows the areas are drawn from -/
  strat : List (RangeRow K)

/-- One file in `plot_stratigraphy` (plotting.py:112-119, 127-129): `iloc[0]` of no rows raises
`IndexError`; all rows called `Formation age` are dropped.  The file is read back as it was written. -/
def plotColumn (hash : String → Int) (sortDepth : List (CleanRow K) → List (CleanRow K))
    (sortDiam : SizeTable K → SizeTable K) (cdf : SizeTable K) (minThick : K)
    (sdf : List (StratRow K)) : Except PyErr (Drawn K) :=
  match sdf.filter (fun r => decide (r.label = "Formation age")) with
  | [] => .error .indexError
  | f :: _ => do
    let rest := sdf.filter (fun r => decide (r.label ≠ "Formation age"))
    let (_, clean) ← cleanUp minThick (rest.map StratRow.toP)
    let strat ← stratRanges hash sortDepth sortDiam cdf clean
    .ok { age := f.time, clean := clean, areas := plotAreas strat, strat := strat }

end MoonPIES
