import Mathlib.Data.Real.Basic
import Mathlib.Algebra.BigOperators.Group.List.Basic

/-!
# Specification: straight lines fitted to points
-/

namespace MoonPIES.Spec

/-- The sum of the squared distances, in height, of the points from the line with slope `a` and
height `b` at 0. -/
noncomputable def sqDist (pts : List (ℝ × ℝ)) (a b : ℝ) : ℝ := (pts.map fun p => (p.2 - (a * p.1 + b)) ^ 2).sum

/-- The line with slope `a` and height `b` at 0 is closer to the points than any other. -/
def BestLine (pts : List (ℝ × ℝ)) (a b : ℝ) : Prop :=
  ∀ a' b', (a', b') ≠ (a, b) → sqDist pts a b < sqDist pts a' b'

end MoonPIES.Spec
