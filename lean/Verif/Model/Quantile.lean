import Verif.Model.Agg
import Mathlib.Algebra.Order.Floor.Ring
import Mathlib.Algebra.Order.Field.Basic
import Mathlib.Data.List.Sort
import Mathlib.Analysis.SpecialFunctions.Log.Base

/-!
# Quantiles, boxes and violins

`/repo/notebooks/figure_scripts/plot_figs.py`: `surface_boxplot` (789-835) and the data of
`compare_violin` (77-125), with the library functions they call.
-/

namespace MoonPIES

variable {K : Type} [Field K] [LinearOrder K] [FloorRing K]

/-- `np.percentile(x, 100 q)` and `Series.quantile(q)` of values without NaN: linear interpolation
at position `(n - 1) q` of the sorted values; NaN for no values. -/
def quantile (q : K) (l : List K) : Option K :=
  let s := l.insertionSort (· ≤ ·)
  let h := ((l.length : K) - 1) * q
  match s[⌊h⌋.toNat]?, s[⌊h⌋.toNat + 1]? with
  | some a, some b => some (a + (b - a) * (h - ⌊h⌋))
  | some a, none => some a
  | none, _ => none

/-- A box as drawn. -/
structure BoxStats (K : Type) where
  q1 : K
  med : K
  q3 : K
  whislo : K
  whishi : K
  fliers : List K
  deriving DecidableEq, Repr

/-- The end of the upper whisker (`matplotlib.cbook.boxplot_stats`): the largest value that is not
above `hi`, but not below the third quartile. -/
def whiskerHigh (x : List K) (hi q3 : K) : K :=
  match x.filter (fun y => decide (y ≤ hi)) with
  | [] => q3
  | y :: l => if l.foldl max y < q3 then q3 else l.foldl max y

/-- The end of the lower whisker. -/
def whiskerLow (x : List K) (lo q1 : K) : K :=
  match x.filter (fun y => decide (lo ≤ y)) with
  | [] => q1
  | y :: l => if q1 < l.foldl min y then q1 else l.foldl min y

/-- `matplotlib.cbook.boxplot_stats(x, whis=(a, b))` with `a`, `b` as fractions; no box for no
values. -/
def boxStats (a b : K) (x : List K) : Option (BoxStats K) := do
  let q1 ← quantile (1 / 4) x
  let med ← quantile (1 / 2) x
  let q3 ← quantile (3 / 4) x
  let lo ← quantile a x
  let hi ← quantile b x
  let whislo := whiskerLow x lo q1
  let whishi := whiskerHigh x hi q3
  some ⟨q1, med, q3, whislo, whishi,
    x.filter (fun y => decide (y < whislo)) ++ x.filter (fun y => decide (whishi < y))⟩

/-- The values of column `j` for a cold trap in the runs of that name, NaN removed
(plot_figs.py:796, 803-804; seaborn drops NaN). -/
def trapValues (rows : List (FlatRow K)) (run trap : String) (j : Nat) : List K :=
  (rows.filter (fun r => r.runs = run ∧ r.coldtrap = trap)).filterMap (fun r => r.vals[j]?.join)

/-- The box of a cold trap (plot_figs.py:803-804). -/
def surfaceBox (rows : List (FlatRow K)) (trap : String) (j : Nat) : Option (BoxStats K) :=
  boxStats (1 / 100) (95 / 100) (trapValues rows "moonpies" trap j)

/-- The heights the arrows labelled `p75` and `p99` point at (plot_figs.py:814-822). -/
def surfaceArrows (rows : List (FlatRow K)) (j : Nat) : List (String × Option K) :=
  [("p75", quantile (75 / 100) (trapValues rows "moonpies" "Faustini" j)),
   ("p99", quantile (95 / 100) (trapValues rows "moonpies" "Faustini" j))]

/-- `thresh` (plot_figs.py:825). -/
def surfaceThresh (sdepth : K) : K := if sdepth = 6 then 3 / 10 else 5

/-- `gt_frac` (plot_figs.py:829-830): the fraction of the rows of a cold trap with a value above
`thresh`; NaN is not above it but counts as a row.  Only cold traps with rows are asked for. -/
def exceedFrac (rows : List (FlatRow K)) (trap : String) (j : Nat) (thresh : K) : K :=
  let l := rows.filter (fun r => r.runs = "moonpies" ∧ r.coldtrap = trap)
  ((l.countP (fun r => match r.vals[j]?.join with
    | some y => decide (thresh < y)
    | none => false) : Nat) : K) / (l.length : K)

/-- The data of a violin before the logarithm (plot_figs.py:88-89): values below 1 become NaN. -/
def violinValues (rows : List (FlatRow K)) (run trap : String) (j : Nat) : List K :=
  (trapValues rows run trap j).filter (fun y => !decide (y < 1))

/-- The lines drawn in a violin (plot_figs.py:90, 97-100, `inner='quartiles'`): quartiles of the
decimal logarithms. -/
noncomputable def violinLines (rows : List (FlatRow ℝ)) (run trap : String) (j : Nat) :
    List (Option ℝ) :=
  let y := (violinValues rows run trap j).map (Real.logb 10)
  [quantile (25 / 100) y, quantile (50 / 100) y, quantile (75 / 100) y]

end MoonPIES
