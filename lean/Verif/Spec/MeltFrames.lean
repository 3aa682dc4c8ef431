import Verif.Model.MeltFrames
import Mathlib.Analysis.Real.Sqrt
import Mathlib.Algebra.BigOperators.Group.Finset.Basic

/-!
# Specification vocabulary for the generated melt table
-/

namespace MoonPIES

/-- Spec: the cell in row `i` and column `j`. -/
def Frame.cell {K : Type} (d : Frame K) (i j : Nat) : Option (Option K) :=
  match d.cells[i]? with
  | none => none
  | some row => row[j]?

/-- Spec: one row per mixing ratio and one column per temperature, labelled by them. -/
structure Spec.Labelled {K : Type} (d : Frame K) (mrs temps : List K) : Prop where
  index : d.index = mrs
  columns : d.columns = temps
  rows : d.cells.length = mrs.length
  cols : ∀ row ∈ d.cells, row.length = temps.length

/-- Spec: `m` is the mean and `σ` the population standard deviation of `x 0, ..., x (n - 1)`. -/
structure Spec.MeanStd (n : Nat) (x : Nat → ℝ) (m σ : ℝ) : Prop where
  mean : n * m = ∑ s ∈ Finset.range n, x s
  nonneg : 0 ≤ σ
  std : n * σ ^ 2 = ∑ s ∈ Finset.range n, (x s - m) ^ 2

end MoonPIES
