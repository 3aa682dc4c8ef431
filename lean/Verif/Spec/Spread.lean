import Verif.Spec.MeanIce
import Mathlib.Analysis.SpecialFunctions.Exp
import Mathlib.Topology.Algebra.InfiniteSum.Defs

/-!
# Specification: how much what is drawn varies
-/

namespace MoonPIES.Spec

open MeasureTheory

/-- Mean of `F` of the ice of a step in which `x` craters are expected, over the same draws as
`meanShower`. -/
noncomputable def meanOf (F : ℝ → ℝ) (m : ℝ → ℝ → ℝ) (ν : Measure ℝ) (ds ps : List ℝ) (p x : ℝ) : ℝ :=
  ∫ r in (0 : ℝ)..1, meanPick ds ps ⌊x + r⌋.toNat (fun craters =>
    meanDraws (volume.restrict (Set.Ico 0 1)) craters.length (fun u =>
      meanDraws ν (icyOf p craters u).length (fun vs => F (total m (icyOf p craters u) vs))))

/-- Variance of the ice of a step. -/
noncomputable def varianceShower (m : ℝ → ℝ → ℝ) (ν : Measure ℝ) (ds ps : List ℝ) (p x : ℝ) : ℝ :=
  meanOf (fun y => (y - meanShower m ν ds ps p x) ^ 2) m ν ds ps p x

/-- Mean square of the ice of one wet impactor. -/
noncomputable def meanSquare (m : ℝ → ℝ → ℝ) (ν : Measure ℝ) (ds ps : List ℝ) : ℝ :=
  ((ds.zip ps).map (fun q => q.2 * ∫ v, m q.1 v ^ 2 ∂ν)).sum

/-- Variance of the ice of wet impactors that fall independently of each other, `y` per step in the mean: their number
follows the law of Poisson. -/
noncomputable def poissonVariance (m : ℝ → ℝ → ℝ) (ν : Measure ℝ) (ds ps : List ℝ) (y : ℝ) : ℝ :=
  ∑' n : ℕ, Real.exp (-y) * (y ^ n / n.factorial) * meanPick ds ps n (fun craters =>
    meanDraws ν craters.length (fun vs => (total m craters vs - y * meanMass m ν ds ps) ^ 2))

end MoonPIES.Spec
