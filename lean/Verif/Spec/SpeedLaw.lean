import Mathlib.MeasureTheory.Integral.Bochner.Set
import Mathlib.MeasureTheory.Constructions.BorelSpace.Real
import Mathlib.MeasureTheory.Measure.Lebesgue.Basic

/-!
# Specification: densities
-/

namespace MoonPIES.Spec

open MeasureTheory Set

/-- `pdf`, `cdf` and `sf` are the density and the distribution functions of one distribution. -/
structure Distribution (pdf cdf sf : ℝ → ℝ) : Prop where
  nonneg : ∀ x, 0 ≤ pdf x
  integrable : Integrable pdf
  total : ∫ x, pdf x = 1
  below : ∀ x, cdf x = ∫ t in Iic x, pdf t
  above : ∀ x, sf x = ∫ t in Ioi x, pdf t

/-- The random number `X` has density `f`. -/
def HasDensity {Ω : Type} [MeasurableSpace Ω] (P : Measure Ω) (X : Ω → ℝ) (f : ℝ → ℝ) : Prop :=
  ∀ A, MeasurableSet A → P (X ⁻¹' A) = ENNReal.ofReal (∫ x in A, f x)

end MoonPIES.Spec
