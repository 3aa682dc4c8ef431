import Verif.Model.Strat

/-!
# Stratigraphy tables in rounded arithmetic

`make_strat_col` and `merge_adjacent_strata` again (moonpies.py 2546-2603), now with
a rounding function `fl` after every arithmetic operation, as in `Model/Column`.
pandas adds up the rows of a group with its own (compensated) loop; that sum is the
parameter `agg`.  Comparisons, labels and grouping involve no rounding and are those
of `Model/Strat`.  With `fl = id` and the exact sum this is `makeStratCol`.
-/

namespace MoonPIES

variable {K : Type} [Field K] [LinearOrder K]

/-- Aggregation of one group (moonpies.py:2602) with the sum `agg`. -/
def aggRowFl (agg : List K → K) (g : Row K × List (Row K)) : Row K :=
  let l := g.2.getLastD g.1
  { time := l.time, ice := agg ((g.1 :: g.2).map (·.ice)),
    ejecta := agg ((g.1 :: g.2).map (·.ejecta)), label := l.label }

/-- `merge_adjacent_strata` (moonpies.py:2598-2603) with the sum `agg`. -/
def mergeAdjacentFl (agg : List K → K) (rows : List (Row K)) : List (Row K) :=
  (groupRuns (·.label) rows).map (aggRowFl agg)

/-- Cut at the trap's age (moonpies.py:2575-2580); the limit is
`age + np.abs(age) * tol`, rounded twice. -/
def cutAtAgeFl (fl : K → K) (age tol : K) (rows : List (Option String × Row K)) :
    Except PyErr (List (Option String × Row K)) :=
  match rows.filter (fun r => decide (r.2.time < fl (age + fl (|age| * tol)))) with
  | [] => .error .indexError
  | r :: rest => .ok ((some "Formation age",
      { time := r.2.time, ice := 0, ejecta := 0, label := "Formation age" }) :: r :: rest)

/-- `np.cumsum`: one rounded addition per entry. -/
def cumsumFl (fl : K → K) (acc : K) : List K → List K
  | [] => []
  | x :: xs => fl (acc + x) :: cumsumFl fl (fl (acc + x)) xs

/-- `np.round(x, 4)`: numpy multiplies by `10**4`, rounds to an integer and divides. -/
def round4Fl [FloorRing K] (fl : K → K) (x : K) : K :=
  fl ((roundHalfEven (fl (x * 10000)) : K) / 10000)

/-- `np.round(100 * ice / (ice + ejecta), 4)` (moonpies.py:2592); `none` is NaN. -/
def icePctFl [FloorRing K] (fl : K → K) (ice ejecta : K) : Option K :=
  if fl (ice + ejecta) = 0 then none
  else some (round4Fl fl (fl (fl (100 * ice) / fl (ice + ejecta))))

/-- Depth and percentage columns (moonpies.py:2589-2592). -/
def addDepthPctFl [FloorRing K] (fl : K → K) (rows : List (Row K)) : List (StratRow K) :=
  let depth := (cumsumFl fl 0 (rows.map (fun r => fl (r.ice + r.ejecta))).reverse).reverse
  List.zipWith (fun (r : Row K) (d : K) =>
    { ice := r.ice, ejecta := r.ejecta, label := r.label, time := r.time, depth := d,
      icepct := icePctFl fl r.ice r.ejecta }) rows depth

/-- `make_strat_col` (moonpies.py:2546-2595) in rounded arithmetic. -/
def makeStratColFl [FloorRing K] (fl : K → K) (agg : List K → K) (thickMin tol : K)
    (stratAfterAge : Bool) (age : K) (steps : List (Step K)) :
    Except PyErr (List (StratRow K)) := do
  let sdf := labelRows thickMin steps
  let sdf ← if stratAfterAge then cutAtAgeFl fl age tol sdf else .ok sdf
  .ok (addDepthPctFl fl (mergeAdjacentFl agg (dropUnlabelled sdf)))

end MoonPIES
