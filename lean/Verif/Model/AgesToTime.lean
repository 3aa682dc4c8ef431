import Mathlib.Algebra.Order.Field.Basic
import Mathlib.Algebra.Order.Group.Unbundled.Abs
import Verif.Model.Basic

/-!
# Model of `ages2time` and the ejecta-per-timestep arrays

`/repo/moonpies/moonpies.py` lines 696-809 and 2822-2831.

2D arrays are modelled one cold-trap column at a time: every operation of these
functions works column by column (`axis=0`).  NaN is `none`.
-/

namespace MoonPIES

variable {K : Type} [Field K] [LinearOrder K]

/-- `rtol(num, tol)` (moonpies.py 2822-2824). -/
def rtolOf (tol x : K) : K := |x| * tol

/-- `minmax_rtol(arr, tol)` (moonpies.py 2827-2831); `np.min` of an empty array
raises `ValueError`. -/
def minmaxRtol (tol : K) (arr : List K) : Except PyErr (K × K) :=
  match arr with
  | [] => .error .valueError
  | x :: xs =>
    let amin := xs.foldl min x
    let amax := xs.foldl max x
    .ok (amin - rtolOf tol amin, amax + rtolOf tol amax)

/-- Loop of `np.argmin`: `best` is the index of the least value `bv` so far; a
later value replaces it only when strictly smaller. -/
def argminFrom (best : Nat) (bv : K) (i : Nat) : List K → Nat
  | [] => best
  | x :: xs => if x < bv then argminFrom i x (i + 1) xs else argminFrom best bv (i + 1) xs

/-- `np.argmin` of a 1D array (`ValueError` when empty). -/
def argmin : List K → Except PyErr Nat
  | [] => .error .valueError
  | x :: xs => .ok (argminFrom 0 x 1 xs)

/-- Final loop of `ages2time` (moonpies.py 806-808):
`values_time[t_idx] = agg([values_time[t_idx], value])`. -/
def placeAll {A V : Type} (agg : A → V → A) : List (Nat × V) → List A → Except PyErr (List A)
  | [], acc => .ok acc
  | (i, v) :: rest, acc =>
    match acc[i]? with
    | none => .error .indexError
    | some old => placeAll agg rest (acc.set i (agg old v))

/-- `time_idx` (moonpies.py 802): nearest model time of each in-range item. -/
def timeIdx {V : Type} (time : List K) : List (K × V) → Except PyErr (List (Nat × V))
  | [] => .ok []
  | (a, v) :: rest => do
    let i ← argmin (time.map (fun t => |t - a|))
    let tl ← timeIdx time rest
    .ok ((i, v) :: tl)

/-- `ages2time(time_arr, ages, values, agg, fillval)` (moonpies.py 762-809) for
one column; `items` is the list of `(age, value)`. -/
def ages2time {A V : Type} (tol : K) (time : List K) (items : List (K × V)) (agg : A → V → A)
    (fill : A) : Except PyErr (List A) := do
  let (tmin, tmax) ← minmaxRtol tol time
  let isin := items.filter (fun p => decide (p.1 ≥ tmin) && decide (p.1 ≤ tmax))
  let idx ← timeIdx time isin
  placeAll agg idx (List.replicate time.length fill)

/-- `np.nansum([acc, v])` where `acc` is never NaN. -/
def nansum (acc : K) : Option K → K
  | none => acc
  | some v => acc + v

/-- `np.nanmax([acc, v])` where `acc` is never NaN. -/
def nanmax (acc : K) : Option K → K
  | none => acc
  | some v => max acc v

/-- A row of the crater table as used here: name, age, and ejecta thickness at
one cold trap. -/
structure EjRow (K : Type) where
  cname : String
  age : K
  thick : K

/-- python `s.rstrip(",")`. -/
def rstripComma (s : String) : String :=
  String.ofList ((s.toList.reverse.dropWhile (· == ',')).reverse)

/-- `get_ejecta_thickness_time` (moonpies.py 696-733) for one cold trap, given
the thickness matrix column (computed by `get_ejecta_thickness_matrix`).
Thickness is never NaN (`get_ejecta_thickness` starts from zeros). -/
def ejectaThicknessTime (tol thickMin : K) (time : List K) (rows : List (EjRow K)) :
    Except PyErr (List K × List String) := do
  let thick ← ages2time tol time (rows.map (fun r => (r.age, some r.thick))) nansum 0
  let srcs ← ages2time tol time
    (rows.map (fun r => (r.age, if r.thick > thickMin then r.cname ++ "," else "")))
    (fun acc s => acc ++ s) ""
  .ok (thick, srcs.map rstripComma)

end MoonPIES
