import Mathlib.Algebra.Order.BigOperators.Group.Finset
import Mathlib.Algebra.Order.Field.Basic
import Mathlib.Data.Fintype.BigOperators

/-!
# Means over an ensemble
-/

namespace MoonPIES.Spec

open Finset

variable {K ι : Type} [Field K] [LinearOrder K] [Fintype ι]

/-- Weights of the members of an ensemble. -/
structure Weights (w : ι → K) : Prop where
  nonneg : ∀ i, 0 ≤ w i
  total : ∑ i, w i = 1

/-- `m` is the mean of the columns `ys i`, timestep by timestep. -/
structure MeanColumn (w : ι → K) (ys : ι → List K) (m : List K) : Prop where
  length : ∀ i, (ys i).length = m.length
  entry : ∀ (k : Nat) (x : K), m[k]? = some x → ∃ y : ι → K, (∀ i, (ys i)[k]? = some (y i)) ∧ x = ∑ i, w i * y i

end MoonPIES.Spec
