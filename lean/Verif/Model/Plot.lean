import Verif.Model.Strat

/-!
# Post-processing of stratigraphy tables

`clean_up_strat_col` (`/repo/moonpies/plotting.py` 250-277) and the per-run sums of
`agg_coldtrap` (`/repo/notebooks/figure_scripts/aggregate.py` 39-91).
-/

namespace MoonPIES

variable {K : Type} [Field K] [LinearOrder K]

/-! ## `clean_up_strat_col` -/

/-- A row of the table passed to `clean_up_strat_col`. -/
structure PRow (K : Type) where
  /-- ice thickness -/
  ice : K
  /-- ejecta thickness -/
  ejecta : K
  /-- layer label -/
  label : String
  /-- time of the layer -/
  time : K
  /-- depth of the base of the layer -/
  depth : K
  deriving DecidableEq, Repr

/-- `thickness = -np.diff(np.r_[strat.depth, 0])` and
`strat.loc[thickness < min_thick, 'label'] = 'Other'` (plotting.py:259-262).  The second statement
changes the table of the caller. -/
def markThin (minThick : K) : List (PRow K) → List (PRow K)
  | [] => []
  | r :: rest =>
    let below := match rest with
      | [] => 0
      | s :: _ => s.depth
    (if r.depth - below < minThick then { r with label := "Other" } else r) :: markThin minThick rest

/-- Aggregation of one group with the dictionary of plotting.py:257-258. -/
def aggPRow (g : PRow K × List (PRow K)) : PRow K :=
  let l := g.2.getLastD g.1
  { ice := ((g.1 :: g.2).map (·.ice)).sum, ejecta := ((g.1 :: g.2).map (·.ejecta)).sum,
    label := l.label, time := l.time, depth := l.depth }

/-- `mp.merge_adjacent_strata(strat, agg)` on a table without missing labels. -/
def mergePRows (rows : List (PRow K)) : List (PRow K) := (groupRuns (·.label) rows).map aggPRow

/-- Keys of `groupby(["label", isadj])` when labels may be missing: a missing label differs from
everything, itself included, and `groupby` drops its rows. -/
def adjKeysOpt : Option String → Nat → List (Option String × PRow K) →
    List ((String × Nat) × PRow K)
  | _, _, [] => []
  | prev, c, (lab, a) :: rest => match lab with
    | none => adjKeysOpt none (c + 1) rest
    | some l =>
      let c' := if prev = some l then c else c + 1
      ((l, c'), a) :: adjKeysOpt (some l) c' rest

/-- `mp.merge_adjacent_strata(strat, agg)` when labels may be missing. -/
def mergeNullable (rows : List (Option String × PRow K)) : List (PRow K) :=
  ((adjKeysOpt none 0 rows).foldl (fun gs ka => groupInsert ka.1 ka.2 gs) []).map
    (fun g => aggPRow g.2)

/-- A finished row. -/
structure CleanRow (K : Type) extends PRow K where
  /-- ice percentage, `none` is NaN -/
  icepct : Option K
  deriving DecidableEq, Repr

/-- `clean_up_strat_col` (plotting.py:250-277): the table left to the caller and the result.
`newlabel.extend(...)` returns `None`, so the rows still called `'Other'` get a missing label
(plotting.py:271-272).  `strat.loc[1, 'label']` raises `KeyError` when the only layer is `'Other'`
(plotting.py:268-270). -/
def cleanUp (minThick : K) (rows : List (PRow K)) :
    Except PyErr (List (PRow K) × List (CleanRow K)) :=
  if rows = [] then .ok ([], [])
  else
    let marked := markThin minThick rows
    let strat := mergePRows marked
    match strat with
    | [] => .error .keyError
    | r0 :: tl =>
      if r0.label = "Other" ∧ tl = [] then .error .keyError
      else
        let relabelled := (r0 :: tl).map
          (fun r => (if r.label = "Other" then none else some r.label, r))
        .ok (marked, (mergeNullable relabelled).map (fun r => { r with
          icepct := if r.ice + r.ejecta = 0 then none
            else some (100 * r.ice / (r.ice + r.ejecta)) }))

/-! ## `agg_coldtrap` -/

/-- A row of a stratigraphy file as read by `agg_coldtrap`. -/
structure AggRow (K : Type) where
  /-- ice thickness -/
  ice : K
  /-- time -/
  time : K
  /-- depth of the base -/
  depth : K
  /-- label -/
  label : String
  deriving DecidableEq, Repr

/-- `np.searchsorted(a, v, side='right')`: NumPy's binary search (`fuel` bounds `hi - lo`). -/
def searchRight (a : List K) (v : K) : Nat → Nat → Nat → Nat
  | 0, lo, _ => lo
  | fuel + 1, lo, hi =>
    if lo < hi then
      let mid := lo + (hi - lo) / 2
      match a[mid]? with
      | some x => if x ≤ v then searchRight a v fuel (mid + 1) hi else searchRight a v fuel lo mid
      | none => lo
    else lo

/-- Total ice above depth `d` (aggregate.py:75-81) for the layers `rows`, deepest first. -/
def totalIceTo (d : K) (rows : List (AggRow K)) : K :=
  let base := ((rows.filter (fun r => decide (r.depth ≤ d))).map (·.ice)).sum
  let ind := searchRight (rows.map (·.depth)).reverse d rows.length 0 rows.length + 1
  if ind ≤ rows.length then
    match rows[rows.length - ind]? with
    | some r => base + max 0 (d - (r.depth - r.ice))
    | none => base
  else base

/-- What `agg_coldtrap` records for one file (aggregate.py:55-81). -/
structure AggRun (K : Type) where
  /-- `total ice` -/
  total : K
  /-- `maxdepth` -/
  maxdepth : K
  /-- `total ice {d}m` for each depth -/
  upTo : List K
  deriving DecidableEq, Repr

/-- `max` of a list that is not empty. -/
def maxOf (x : K) (l : List K) : K := l.foldl max x

/-- One file of `agg_coldtrap` (aggregate.py:58-81): `float(df[df.label == ...].time)` raises
`TypeError` unless exactly one row is labelled `Formation age`; `none` means skipped (the arrays
keep their zeros). -/
def aggFile (depths : List K) (df : List (AggRow K)) : Except PyErr (Option (AggRun K)) :=
  match df.filter (fun r => r.label = "Formation age") with
  | [f] =>
    match df.filter (fun r => decide (r.time ≤ f.time)) with
    | [] => .ok none
    | r :: rest => .ok (some
      { total := ((r :: rest).map (·.ice)).sum,
        maxdepth := maxOf r.depth (rest.map (·.depth)),
        upTo := depths.map (fun d => totalIceTo d (r :: rest)) })
  | _ => .error .typeError

end MoonPIES
