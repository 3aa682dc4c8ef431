import Verif.Model.Basic
import Mathlib.Algebra.Order.Floor.Ring
import Mathlib.Algebra.Order.Field.Basic

/-!
# Model time array

`/repo/moonpies/moonpies.py` 80-98 (`get_time_array`) with the two numpy / python
calls it makes.
-/

namespace MoonPIES

variable {K : Type} [Field K] [LinearOrder K] [FloorRing K]

/-- Python `int(x)` of a float: truncation toward zero (moonpies.py:97). -/
def pyInt (x : K) : Int := if 0 ≤ x then ⌊x⌋ else ⌈x⌉

/-- `np.linspace(start, stop, num)` (moonpies.py:98): `num` points from `start` to
`stop` inclusive; one point is `start`, negative `num` is a `ValueError`. -/
def linspace (start stop : K) (num : Int) : Except PyErr (List K) :=
  if num < 0 then .error .valueError
  else if num = 1 then .ok [start]
  else .ok ((List.range num.toNat).map
    (fun i : Nat => start + (i : K) * ((stop - start) / ((num.toNat : K) - 1))))

/-- `get_time_array` (moonpies.py:80-98).  Division by a zero timestep raises. -/
def getTimeArray (timestart timeend timestep : K) : Except PyErr (List K) :=
  if timestep = 0 then .error .zeroDivisionError
  else linspace timestart timestep (pyInt ((timestart - timeend) / timestep))

end MoonPIES
