import Verif.Model.IceByModule

/-!
# Ice by module against time

`/repo/notebooks/figure_scripts/plot_figs.py` 1283-1321 (`plot_by_module_time`): means over slices
of time on the left, running totals on the right.
-/

namespace MoonPIES

variable {K : Type} [Field K] [LinearOrder K] [FloorRing K]

/-- The bins that `pd.cut(x, bins=n)` makes (plot_figs.py:1290): `n` bins of equal width from the
least to the largest value; as bins do not include their left end, the first end is moved left by
a thousandth of the range.  If all values are equal the range is widened on both sides instead.
No bins or no values are a `ValueError`. -/
def cutEdges (n : Nat) : List K → Except PyErr (List K)
  | [] => .error .valueError
  | x :: l =>
    let mn := l.foldl min x
    let mx := l.foldl max x
    if n = 0 then .error .valueError
    else if mn = mx then
      let d : K := if mn = 0 then 1 / 1000 else |mn| / 1000
      linspace (mn - d) (mx + d) ((n : Int) + 1)
    else do
      let e ← linspace mn mx ((n : Int) + 1)
      .ok (e.set 0 (mn - (mx - mn) / 1000))

/-- The entries of `col` whose time is in the bin from `a` to `b`, which includes `b`. -/
def binValues (time col : List K) (a b : K) : List K :=
  ((time.zip col).filter (fun p => decide (a < p.1 ∧ p.1 ≤ b))).map (·.2)

/-- The mean of a group of `groupby(…).agg('mean')`; NaN for an empty group. -/
def groupMean (l : List K) : Option K := if l = [] then none else some (l.sum / l.length)

/-- A column of `df.groupby(pd.cut(df['time'], bins=n)).agg('mean')` (plot_figs.py:1290): one
entry per bin, youngest bin first. -/
def groupMeans (n : Nat) (time col : List K) : Except PyErr (List (Option K)) := do
  let e ← cutEdges n time
  .ok (List.zipWith (fun a b => groupMean (binValues time col a b)) e e.tail)

/-- `cumsum()` of a column (plot_figs.py:1291). -/
def cumSum : List K → List K
  | [] => []
  | x :: l => x :: (cumSum l).map (x + ·)

/-- A curve of the left panel (plot_figs.py:1290, 1304): the mean time and the mean of the column
for each bin.  The argument `bins` of the function is not used: the number is 85.  Bins without
times have NaN and draw nothing. -/
noncomputable def timeFigLeft (t : ModuleTable) (_bins : Nat) (k : ModCol) :
    Except PyErr (List (Option (ℝ × ℝ))) := do
  let x ← groupMeans 85 (t .time) (t .time)
  let y ← groupMeans 85 (t .time) (t k)
  .ok (List.zipWith (fun a b => a.bind fun a => b.map fun b => (a, b)) x y)

/-- A curve of the right panel (plot_figs.py:1291, 1304). -/
noncomputable def timeFigRight (t : ModuleTable) (k : ModCol) : List (ℝ × ℝ) :=
  (t .time).zip (cumSum (t k))

end MoonPIES
