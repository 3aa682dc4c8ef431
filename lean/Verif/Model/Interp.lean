import Mathlib.Algebra.Order.Field.Basic

/-!
# `np.interp`
-/

namespace MoonPIES

variable {K : Type} [Field K] [LinearOrder K]

/-- Search of `np.interp` from the knot `(x0, f0)` on, for `x ≥ x0`.  NumPy bisects; on
ascending knots it finds the same interval as this left-to-right scan. -/
def interpFrom (x x0 f0 : K) : List (K × K) → K
  | [] => f0
  | (x1, f1) :: rest =>
    if x < x1 then f0 + (f1 - f0) / (x1 - x0) * (x - x0) else interpFrom x x1 f1 rest

/-- `np.interp(x, xp, fp)` for the knots `zip xp fp`: constant outside, linear between
ascending knots; `none` is the `ValueError` for an empty table. -/
def npInterp (x : K) : List (K × K) → Option K
  | [] => none
  | (x0, f0) :: rest => some (if x < x0 then f0 else interpFrom x x0 f0 rest)

end MoonPIES
