import Verif.Model.TimeArray
import Verif.Model.AgesToTime
import Verif.Model.Rounding
import Verif.Model.Ice

/-!
# Model times in rounded arithmetic

`cfg.dtype` is `np.float32` (`/repo/moonpies/config.py:125`, a class attribute that no
configuration can change): the model times are single precision numbers, and
4.25 billion years is not one of them.  Here the functions that make the times, round
ages to them and compare with them are modelled again (`/repo/moonpies/moonpies.py`
80-98, 762-809, 1091-1133, 2817-2831) with the roundings: `fd` is the rounding to double
precision, in which numpy computes, and `fs` the rounding to `cfg.dtype`.
-/

namespace MoonPIES

variable {K : Type} [Field K] [LinearOrder K] [FloorRing K]

/-- `np.linspace(start, stop, num, dtype=cfg.dtype)` (moonpies.py:98) as numpy computes it:
`step = (stop - start) / (num - 1)` and `arange(num) * step + start` in double precision
(with the factor divided first when the step is zero), the last entry replaced by `stop`,
and the result converted by `fs`. -/
def linspaceFl (fd fs : K → K) (start stop : K) (num : Int) : Except PyErr (List K) :=
  if num < 0 then .error .valueError
  else
    let n := num.toNat
    let delta := fd (stop - start)
    let step := fd (delta / ((n : K) - 1))
    let y := (List.range n).map (fun i : Nat =>
      if n ≤ 1 then fd (fd ((i : K) * delta) + start)
      else if step = 0 then fd (fd (fd ((i : K) / ((n : K) - 1)) * delta) + start)
      else fd (fd ((i : K) * step) + start))
    let y := if 1 < n then y.set (n - 1) stop else y
    .ok (y.map fs)

/-- `get_time_array` (moonpies.py:80-98).  The three settings are Python integers
(config.py:130-132): their difference is exact, their quotient a double. -/
def getTimeArrayFl (fd fs : K → K) (timestart timeend timestep : Int) : Except PyErr (List K) :=
  if timestep = 0 then .error .zeroDivisionError
  else linspaceFl fd fs (fd timestart) (fd timestep)
    (pyInt (fd (((timestart - timeend : Int) : K) / (timestep : K))))

/-- `round_to_ts(values, timestep)` (moonpies.py:2817-2819) on one value, a double. -/
def roundToTsFl (fd : K → K) (v ts : K) : K := fd ((roundHalfEven (fd (v / ts)) : K) * ts)

/-- `minmax_rtol` (moonpies.py:2827-2831): each product, difference and sum is rounded. -/
def minmaxRtolFl (fl : K → K) (tol : K) (arr : List K) : Except PyErr (K × K) :=
  match arr with
  | [] => .error .valueError
  | x :: xs =>
    let amin := xs.foldl min x
    let amax := xs.foldl max x
    .ok (fl (amin - fl (|amin| * tol)), fl (amax + fl (|amax| * tol)))

/-- `time_idx` (moonpies.py:802) with the differences rounded. -/
def timeIdxFl {V : Type} (fl : K → K) (time : List K) :
    List (K × V) → Except PyErr (List (Nat × V))
  | [] => .ok []
  | (a, v) :: rest => do
    let i ← argmin (time.map (fun t => |fl (t - a)|))
    let tl ← timeIdxFl fl time rest
    .ok ((i, v) :: tl)

/-- `ages2time` (moonpies.py:762-809) for one column.  What `agg` does with the values is
left as it is: only the dating is rounded here. -/
def ages2timeFl {A V : Type} (fl : K → K) (tol : K) (time : List K) (items : List (K × V))
    (agg : A → V → A) (fill : A) : Except PyErr (List A) := do
  let (tmin, tmax) ← minmaxRtolFl fl tol time
  let isin := items.filter (fun p => decide (p.1 ≥ tmin) && decide (p.1 ≤ tmax))
  let idx ← timeIdxFl fl time isin
  placeAll agg idx (List.replicate time.length fill)

/-- `volcanic_ice_head` (moonpies.py:1128-1132): numpy compares an array with a number in
the precision of the array, so the limits of the epochs are rounded like the times. -/
def volcanicHeadFl (fs : K → K) (cfg : HeadCfg K) (time : List K) : List K :=
  volcanicHead { cfg with
    volc_early := (fs cfg.volc_early.1, fs cfg.volc_early.2),
    volc_late := (fs cfg.volc_late.1, fs cfg.volc_late.2) } time

end MoonPIES
