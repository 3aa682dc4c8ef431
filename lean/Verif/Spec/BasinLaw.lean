import Mathlib.Analysis.SpecialFunctions.Trigonometric.Basic
import Mathlib.Analysis.SpecialFunctions.Pow.Real

/-!
# Specification: rings of ejecta on a plane and on a sphere

For the thickness of ejecta of basins (C36, C118).
-/

namespace MoonPIES

open Real

/-- Where ejecta would land on a plane, as distance from the centre, if thrown out at the rim `R` at
45 degrees with the speed that takes it to distance `x` on a sphere of radius `R0`. -/
noncomputable def Spec.flatDist (R0 R x : ℝ) : ℝ :=
  R + 2 * R0 * (tan ((x - R) / (2 * R0)) / (1 + tan ((x - R) / (2 * R0))))

/-- Area of the plane ring between two distances. -/
noncomputable def Spec.planeRing (a b : ℝ) : ℝ := π * b ^ 2 - π * a ^ 2

/-- Area of the ring on a sphere of radius `R0` between two distances on its surface. -/
noncomputable def Spec.sphereRing (R0 a b : ℝ) : ℝ :=
  2 * π * R0 ^ 2 * (1 - cos (b / R0)) - 2 * π * R0 ^ 2 * (1 - cos (a / R0))

/-- Diameter of the transient crater of a basin of diameter `D` after Croft. -/
noncomputable def Spec.croft (D : ℝ) : ℝ := (D * 18700 ^ (0.18 : ℝ)) ^ (1 / 1.18 : ℝ)

/-- Ejecta of a basin of diameter `D` on the Moon are `t` metres thick, `x` metres from its centre: the
law of Pike holds where they would land on a plane, and their volume is spread over the ring of the
sphere where they do land. -/
def Spec.BasinEjecta (D x t : ℝ) : Prop :=
  let R := croft D / 2
  t * sphereRing 1737400 (x - R / 8) (x + R / 8) =
    0.033 * R * (flatDist 1737400 R x / R) ^ (-3 : ℝ) *
      planeRing (flatDist 1737400 R (x - R / 8)) (flatDist 1737400 R (x + R / 8))

end MoonPIES
