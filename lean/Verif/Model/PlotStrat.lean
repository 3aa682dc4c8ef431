import Verif.Model.Plot
import Mathlib.Data.List.Sort

/-!
# Drawing a stratigraphy column

`/repo/moonpies/plotting.py` 14-15, 84-125 (layout), 172-307 (`plot_strat`, `strat_legend`,
`get_lith_key`, `get_strat_col_ranges`), up to the list of coloured areas handed to matplotlib.
-/

namespace MoonPIES

variable {K : Type} [Field K] [LinearOrder K]

/-- `HATCHES` (plotting.py:14-15). -/
def hatches : List String :=
  ["/", "\\", "|", "-", "+", "x", "o"].flatMap
    (fun h => [1, 2, 3, 4, 5].map (fun n => String.ofList (List.replicate n h.toList).flatten))

/-- `get_lith_key(liths)` (plotting.py:240-247).  `hash` is the hash of strings, which differs
between processes. -/
def lithKey (hash : String → Int) (liths : List String) : Except PyErr (PyDict String) := do
  let key ← liths.foldlM (fun (d : PyDict String) lith => do
    let h ← pyGet hatches (hash lith % (hatches.length : Int)).toNat
    .ok (d.set lith h)) []
  .ok ((key.set "Ice" "..").set "Other" "")

/-- `label.split(',')` (plotting.py:293, 300). -/
def labelLiths (label : String) : List String := (splitComma label.toList).map String.ofList

/-- The crater list used for the sizes (`CDF`, plotting.py:11): name and diameter. -/
abbrev SizeTable (K : Type) := List (String × K)

/-- `cdf.set_index('cname').loc[liths]` (plotting.py:302): the rows of each name in turn, all of
them if a name is listed more than once; a name that is not listed raises `KeyError`. -/
def locNames (cdf : SizeTable K) (liths : List String) : Except PyErr (SizeTable K) := do
  let parts ← liths.mapM (fun l =>
    match cdf.filter (fun r => decide (r.1 = l)) with
    | [] => .error .keyError
    | r :: rs => .ok (r :: rs))
  .ok parts.flatten

/-- The source a layer is hatched by (plotting.py:300-302): of several sources the one that comes
last in the order of diameters, `sortDiam` being that sort. -/
def hatchSource (sortDiam : SizeTable K → SizeTable K) (cdf : SizeTable K) (label : String) :
    Except PyErr String :=
  if (labelLiths label).length > 1 then do
    let rows ← locNames cdf (labelLiths label)
    match (sortDiam rows).getLast? with
    | none => .error .indexError
    | some r => .ok r.1
  else .ok label

/-- A row of the table returned by `get_strat_col_ranges`. -/
structure RangeRow (K : Type) where
  /-- depth -/
  depth : K
  /-- ice percentage, `none` is NaN -/
  icepct : Option K
  /-- label of the layer below the previous row -/
  label : String
  /-- hatch pattern -/
  hatch : String
  /-- name the hatch stands for -/
  hatchlabel : String
  deriving DecidableEq, Repr

/-- `get_strat_col_ranges` (plotting.py:280-307).  `sortDepth` is the sort by depth, which is not
stable.  The row of zeros put on top has depth 0 and percentage 0. -/
def stratRanges (hash : String → Int) (sortDepth : List (CleanRow K) → List (CleanRow K))
    (sortDiam : SizeTable K → SizeTable K) (cdf : SizeTable K) (rows : List (CleanRow K)) :
    Except PyErr (List (RangeRow K)) :=
  match sortDepth (rows ++ rows) with
  | [] => .ok []
  | r :: rs => do
    let strat := r :: rs
    let labels := strat.map (·.label) ++ [(rs.getLastD r).label]
    let key ← lithKey hash (labels.flatMap labelLiths)
    let cells := (0, some 0) :: strat.map (fun s => (s.depth, s.icepct))
    (cells.zip labels).mapM (fun c => do
      let src ← hatchSource sortDiam cdf c.2
      let h ← key.get src
      .ok { depth := c.1.1, icepct := c.1.2, label := c.2, hatch := h, hatchlabel := src })

/-! ## `plot_strat` -/

/-- One area drawn by `ax.fill_betweenx` (plotting.py:179-183): the stretches of depth between
neighbouring rows that both carry the hatch, its ice percentage and its legend label. -/
structure Area (K : Type) where
  /-- depth intervals -/
  spans : List (K × K)
  /-- ice percentage that gives the colour; the colour of NaN is transparent -/
  icepct : Option K
  /-- hatch pattern -/
  hatch : String
  /-- label in the legend -/
  label : String

/-- Intervals between neighbouring rows that both carry `hatch` (the `where` argument). -/
def spansOf (hatch : String) : List (RangeRow K) → List (K × K)
  | a :: b :: rest =>
    if a.hatch = hatch ∧ b.hatch = hatch then (a.depth, b.depth) :: spansOf hatch (b :: rest)
    else spansOf hatch (b :: rest)
  | _ => []

/-- The loop of `plot_strat` (plotting.py:179-183): one area per row, in the order of the rows. -/
def plotAreas (strat : List (RangeRow K)) : List (Area K) :=
  strat.map (fun r => ⟨spansOf r.hatch strat, r.icepct, r.hatch, r.hatchlabel⟩)

/-- What is seen at depth `d`: the last area drawn there that is not transparent. -/
def colourAt (areas : List (Area K)) (d : K) : Option K :=
  ((areas.filter (fun a => a.spans.any (fun s => decide (s.1 < d ∧ d < s.2)))).filterMap
    (·.icepct)).getLast?

/-- The hatch seen at depth `d`: that of the last area drawn there. -/
def hatchAt (areas : List (Area K)) (d : K) : Option String :=
  ((areas.filter (fun a => a.spans.any (fun s => decide (s.1 < d ∧ d < s.2)))).map
    (·.hatch)).getLast?

/-! ## `strat_legend` -/

/-- `sorted` of names. -/
def sortNames (l : List String) : List String := l.insertionSort (fun a b => a ≤ b)

/-- The labels of the legend (plotting.py:223-227). -/
def legendLabels (labels : List String) : List String :=
  (if "Ice" ∈ labels then ["Ice"] else []) ++
    sortNames (labels.dedup.filter (fun l => decide (l ≠ "Ice" ∧ l ≠ "Other"))) ++
    (if "Other" ∈ labels then ["Other"] else [])

/-- `handle.set_facecolor(...)` on the first area of each label (plotting.py:229-234): the handles
are the areas of the plot themselves. -/
def recolour (seen : List String) : List (Area K) → List (Area K)
  | [] => []
  | a :: rest =>
    (if a.label ∈ seen then a
      else { a with icepct := some (if a.label = "Ice" then 100 else 0) }) ::
      recolour (a.label :: seen) rest

/-! ## Layout of `plot_stratigraphy` -/

/-- Number of columns of axes (plotting.py:86). -/
def axisCols (nseeds ncts : Nat) : Nat := nseeds * ncts + (nseeds - 1)

/-- Axis of seed number `s` and cold trap number `i` (plotting.py:125). -/
def axisOf (ncts s i : Nat) : Nat := s * ncts + i + s

/-- The axes switched off, `axs[ncts::ncts+1]` (plotting.py:101). -/
def blankAxes (ncols ncts : Nat) : List Nat :=
  (List.range ncols).filter (fun k => decide (ncts ≤ k ∧ (k - ncts) % (ncts + 1) = 0))

end MoonPIES
