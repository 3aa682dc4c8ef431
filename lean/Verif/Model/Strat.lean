import Verif.Model.Rounding
import Mathlib.Algebra.Order.Field.Basic
import Mathlib.Algebra.Order.Floor.Ring

/-!
# Stratigraphy tables

`/repo/moonpies/moonpies.py` 2546-2648: `make_strat_col`, `merge_adjacent_strata`,
`get_all_labels`, with the pandas calls they make.
-/

namespace MoonPIES

/-! ## `groupby(["label", isadj], sort=False)` -/

section groupby

variable {α : Type} (lab : α → String)

/-- `(strat.label != strat.label.shift()).cumsum()` paired with the rows
(moonpies.py:2600).  `shift()` puts a missing value first, which differs from
every label; `prev` is the shifted label and `c` the running count. -/
def adjKeys : Option String → Nat → List α → List ((String × Nat) × α)
  | _, _, [] => []
  | prev, c, a :: rest =>
    let c' := if prev = some (lab a) then c else c + 1
    ((lab a, c'), a) :: adjKeys (some (lab a)) c' rest

/-- Add one row to the groups: to the group with the same key if there is one,
else as a new last group (pandas `groupby(sort=False)`: groups in order of first
appearance, rows in order).  A group is its first row and the others. -/
def groupInsert (k : String × Nat) (a : α) :
    List ((String × Nat) × α × List α) → List ((String × Nat) × α × List α)
  | [] => [(k, a, [])]
  | (k', f, os) :: rest =>
    if k' = k then (k', f, os ++ [a]) :: rest else (k', f, os) :: groupInsert k a rest

/-- The groups of `strat.groupby(["label", isadj], sort=False)` (moonpies.py:2603). -/
def groupRuns (rows : List α) : List (α × List α) :=
  ((adjKeys lab none 0 rows).foldl (fun gs ka => groupInsert ka.1 ka.2 gs) []).map (·.2)

end groupby

variable {K : Type} [Field K] [LinearOrder K]

/-- A row of the stratigraphy table before merging. -/
structure Row (K : Type) where
  /-- model time -/
  time : K
  /-- ice thickness -/
  ice : K
  /-- ejecta thickness -/
  ejecta : K
  /-- row label -/
  label : String
  deriving DecidableEq, Repr

/-- Aggregation `{"ice": "sum", "ejecta": "sum", "label": "last", "time": "last"}`
of one group (moonpies.py:2602). -/
def aggRow (g : Row K × List (Row K)) : Row K :=
  let l := g.2.getLastD g.1
  { time := l.time, ice := ((g.1 :: g.2).map (·.ice)).sum,
    ejecta := ((g.1 :: g.2).map (·.ejecta)).sum, label := l.label }

/-- `merge_adjacent_strata` (moonpies.py:2598-2603) with the default aggregation. -/
def mergeAdjacent (rows : List (Row K)) : List (Row K) :=
  (groupRuns (·.label) rows).map aggRow

/-- One timestep of a cold trap as passed to `make_strat_col`: time, ice, ejecta
and ejecta source (four arrays of equal length in the code). -/
structure Step (K : Type) where
  /-- model time -/
  time : K
  /-- ice thickness -/
  ice : K
  /-- ejecta thickness -/
  ejecta : K
  /-- ejecta source label -/
  src : String
  deriving DecidableEq, Repr

/-- Row label (moonpies.py:2563-2566): `None` initially, `"Ice"` where ice exceeds
the minimum, overwritten by the source where ejecta does, and empty labels
replaced by `"Minor source(s)"`. -/
def rowLabel (thickMin : K) (s : Step K) : Option String :=
  let l : Option String := none
  let l := if s.ice > thickMin then some "Ice" else l
  let l := if s.ejecta > thickMin then some s.src else l
  if l = some "" then some "Minor source(s)" else l

/-- `rtol` (moonpies.py:2822). -/
def rtolAbs (num tol : K) : K := |num| * tol

/-- A data frame row with a label that may be missing (moonpies.py:2569-2572). -/
def labelRows (thickMin : K) (steps : List (Step K)) : List (Option String × Row K) :=
  steps.map (fun s =>
    let l := rowLabel thickMin s
    (l, { time := s.time, ice := s.ice, ejecta := s.ejecta, label := l.getD "" }))

/-- `sdf.dropna(subset=["label"])` (moonpies.py:2583). -/
def dropUnlabelled (rows : List (Option String × Row K)) : List (Row K) :=
  rows.filterMap (fun r => r.1.map (fun _ => r.2))

/-- Cut at the trap's age and insert the `Formation age` row (moonpies.py:2575-2580).
`sdf.iloc[0]` raises `IndexError` when nothing is left. -/
def cutAtAge (age tol : K) (rows : List (Option String × Row K)) :
    Except PyErr (List (Option String × Row K)) :=
  match rows.filter (fun r => decide (r.2.time < age + rtolAbs age tol)) with
  | [] => .error .indexError
  | r :: rest => .ok ((some "Formation age",
      { time := r.2.time, ice := 0, ejecta := 0, label := "Formation age" }) :: r :: rest)

/-- `np.cumsum`. -/
def cumsumFrom (acc : K) : List K → List K
  | [] => []
  | x :: xs => (acc + x) :: cumsumFrom (acc + x) xs

/-- `np.round(x, 4)`: to four decimals, halves to even. -/
def round4 [FloorRing K] (x : K) : K := (roundHalfEven (x * 10000) : K) / 10000

/-- A row of the finished table. -/
structure StratRow (K : Type) where
  /-- ice thickness -/
  ice : K
  /-- ejecta thickness -/
  ejecta : K
  /-- layer label -/
  label : String
  /-- time of the last row merged into the layer -/
  time : K
  /-- depth of the base of the layer -/
  depth : K
  /-- ice percentage, `none` is NaN (`0/0`; for negative thicknesses the code could
  also give an infinity here, which is not distinguished) -/
  icepct : Option K
  deriving DecidableEq, Repr

/-- Depth and percentage columns (moonpies.py:2589-2592). -/
def addDepthPct [FloorRing K] (rows : List (Row K)) : List (StratRow K) :=
  let depth := (cumsumFrom 0 (rows.map (fun r => r.ice + r.ejecta)).reverse).reverse
  List.zipWith (fun (r : Row K) (d : K) =>
    { ice := r.ice, ejecta := r.ejecta, label := r.label, time := r.time, depth := d,
      icepct := if r.ice + r.ejecta = (0 : K) then none
        else some (round4 (100 * r.ice / (r.ice + r.ejecta))) }) rows depth

/-- `make_strat_col` (moonpies.py:2546-2595). -/
def makeStratCol [FloorRing K] (thickMin tol : K) (stratAfterAge : Bool) (age : K)
    (steps : List (Step K)) : Except PyErr (List (StratRow K)) := do
  let sdf := labelRows thickMin steps
  let sdf ← if stratAfterAge then cutAtAge age tol sdf else .ok sdf
  .ok (addDepthPct (mergeAdjacent (dropUnlabelled sdf)))

/-! ## `get_all_labels` -/

/-- `s.split(",")` on a list of characters. -/
def splitComma : List Char → List (List Char)
  | [] => [[]]
  | c :: cs =>
    if c = ',' then [] :: splitComma cs
    else match splitComma cs with
      | [] => [[c]]
      | w :: ws => (c :: w) :: ws

/-- `",".join(l)`. -/
def joinChars : List (List Char) → List Char
  | [] => []
  | [a] => a
  | a :: b :: rest => a ++ ',' :: joinChars (b :: rest)

/-- `s.strip(",")`. -/
def stripComma (s : List Char) : List Char :=
  ((s.dropWhile (· == ',')).reverse.dropWhile (· == ',')).reverse

/-- One entry of `get_all_labels` (moonpies.py:2641-2648).  `order` is the
iteration order of the Python `set`: it returns the distinct elements in an order
that depends on string hashing, hence on the process. -/
def allLabelsRow (order : List (List Char) → List (List Char)) (row : List (List Char)) :
    List Char :=
  stripComma (joinChars (order (splitComma (joinChars row))))

/-- `get_all_labels` (moonpies.py:2641-2648). -/
def getAllLabels (order : List (List Char) → List (List Char))
    (labels : List (List (List Char))) : List (List Char) :=
  labels.map (allLabelsRow order)

end MoonPIES
