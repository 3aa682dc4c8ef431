import Mathlib.Analysis.SpecialFunctions.Pow.Real
import Mathlib.Analysis.SpecialFunctions.Trigonometric.Basic

/-!
# Specification: the crater law of Prieur et al. (2017)
-/

namespace MoonPIES

namespace Spec

/-- The crater of transient diameter `D` made by an impactor of length `L` and density `rhoI` hitting
ground of density `rhoT` at speed `v` under gravity `g`, in dimensionless form: the scaled diameter
`D (rhoT / m)^(1/3)` is `1.6` times the `-0.22`th power of `1.61 g L / v²`, where `m` is the mass of
a sphere of diameter `L`. -/
def PrieurLaw (v rhoI rhoT g L D : ℝ) : Prop :=
  ∃ m, m = rhoI * (Real.pi * L ^ 3 / 6) ∧
    D * (rhoT / m) ^ (1 / 3 : ℝ) = 1.6 * (1.61 * g * L / v ^ 2) ^ (-0.22 : ℝ)

/-- Number `k` of the 1000 equally spaced lengths from `lo` to `hi`. -/
noncomputable def tabLength (lo hi : ℝ) (k : Nat) : ℝ := lo + k * ((hi - lo) / 999)

end Spec

end MoonPIES
