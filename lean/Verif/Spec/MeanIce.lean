import Verif.Spec.Sources
import Mathlib.MeasureTheory.Integral.IntervalIntegral.Basic
import Mathlib.MeasureTheory.Measure.Lebesgue.Basic

/-!
# Specification: the mean of what is drawn

Means over independent draws, one draw after the other, and the mean mass of ice of one timestep in
a regime in which craters are drawn one by one.
-/

namespace MoonPIES.Spec

open MeasureTheory

/-- Mean of `f` over `n` independent picks from `ds`, which have probabilities `ps`. -/
noncomputable def meanPick (ds ps : List ℝ) : ℕ → (List ℝ → ℝ) → ℝ
  | 0, f => f []
  | n + 1, f => ((ds.zip ps).map (fun q => q.2 * meanPick ds ps n (fun l => f (q.1 :: l)))).sum

/-- Mean of `f` over `n` independent draws from the law `μ`. -/
noncomputable def meanDraws (μ : Measure ℝ) : ℕ → (List ℝ → ℝ) → ℝ
  | 0, f => f []
  | n + 1, f => ∫ x, meanDraws μ n (fun l => f (x :: l)) ∂μ

open Classical in
/-- The craters made by wet impactors: those whose draw is below the chance `p`. -/
noncomputable def icyOf (p : ℝ) (craters u : List ℝ) : List ℝ :=
  ((craters.zip u).filter (fun q => decide (q.2 < p))).map (·.1)

/-- The ice of craters with the speeds of their impactors, if `m D v` is the ice of one. -/
def total (m : ℝ → ℝ → ℝ) (icy vs : List ℝ) : ℝ := (List.zipWith m icy vs).sum

/-- Mean ice of a step in which `x` craters are expected.  Drawn are the number of craters
(`x` rounded up or down), their diameters, which of them are wet (with chance `p`), and the speeds of
those. -/
noncomputable def meanShower (m : ℝ → ℝ → ℝ) (ν : Measure ℝ) (ds ps : List ℝ) (p x : ℝ) : ℝ :=
  ∫ r in (0 : ℝ)..1, meanPick ds ps ⌊x + r⌋.toNat (fun craters =>
    meanDraws (volume.restrict (Set.Ico 0 1)) craters.length (fun u =>
      meanDraws ν (icyOf p craters u).length (fun vs => total m (icyOf p craters u) vs)))

/-- Mean ice of one wet impactor. -/
noncomputable def meanMass (m : ℝ → ℝ → ℝ) (ν : Measure ℝ) (ds ps : List ℝ) : ℝ :=
  ((ds.zip ps).map (fun q => q.2 * ∫ v, m q.1 v ∂ν)).sum

/-- The law with density `f`. -/
noncomputable def lawOf (f : ℝ → ℝ) : Measure ℝ := volume.withDensity (fun x => ENNReal.ofReal (f x))

end MoonPIES.Spec
