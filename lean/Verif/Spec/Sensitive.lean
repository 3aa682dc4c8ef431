import Mathlib.Algebra.Order.Field.Basic
import Mathlib.Algebra.Order.AbsoluteValue.Basic

/-!
# How far apart two columns are
-/

namespace MoonPIES.Spec

variable {K : Type} [Field K] [LinearOrder K]

/-- The metres by which two columns differ, added up over their layers. -/
def gap : List K → List K → K
  | x :: xs, y :: ys => |x - y| + gap xs ys
  | _, _ => 0

end MoonPIES.Spec
