import Verif.Model.Basic
import Mathlib.Algebra.Order.Floor.Ring
import Mathlib.Algebra.Order.Field.Basic

/-!
# Rounding helpers

`/repo/moonpies/moonpies.py` 2793-2819.
-/

namespace MoonPIES

variable {K : Type} [Field K] [LinearOrder K] [FloorRing K]

/-- `np.around(y)` / `np.round(y)`: nearest integer, halves to even. -/
def roundHalfEven (y : K) : Int :=
  let f := ⌊y⌋
  if y - f < 1 / 2 then f else if 1 / 2 < y - f then f + 1
    else if f % 2 = 0 then f else f + 1

/-- `round_to_ts(values, timestep)` (moonpies.py:2817-2819) on one value. -/
def roundToTs (v ts : K) : K := (roundHalfEven (v / ts) : K) * ts

/-- `probabilistic_round(x, rng)` (moonpies.py:2793-2814) on one value: `u` is the
draw of `rng.random`, a number in `[0, 1)`. -/
def probRound (x u : K) : Int := ⌊x + u⌋

end MoonPIES
