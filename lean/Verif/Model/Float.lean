import Verif.Model.Rounding
import Mathlib.Data.Int.Log

/-!
# Binary floating point

The numbers of Python and numpy (`cfg.dtype`, `/repo/moonpies/config.py`, and every
array of moonpies.py) are IEEE binary floats.  The result of an operation is the
exact result rounded to the nearest number with `p + 1` binary digits, ties to the
even one.  Overflow is left out.
-/

namespace MoonPIES

variable {K : Type} [Field K] [LinearOrder K] [FloorRing K]

/-- Exponent of the leading digit; with gradual underflow (`some m`) not below `m`. -/
def floatExp [IsStrictOrderedRing K] (lo : Option Int) (x : K) : Int :=
  match lo with
  | none => Int.log 2 x
  | some m => max m (Int.log 2 x)

/-- Rounding a non-negative number to `p + 1` binary digits. -/
def roundPos [IsStrictOrderedRing K] (p : Nat) (lo : Option Int) (x : K) : K :=
  (roundHalfEven (x / 2 ^ (floatExp lo x - p)) : K) * 2 ^ (floatExp lo x - p)

/-- Rounding to nearest, ties to even. -/
def roundFloat [IsStrictOrderedRing K] (p : Nat) (lo : Option Int) (x : K) : K :=
  if 0 ≤ x then roundPos p lo x else -roundPos p lo (-x)

end MoonPIES
