import Mathlib.Algebra.Order.Field.Basic

/-!
# What was delivered less what was taken
-/

namespace MoonPIES.Spec

variable {K : Type} [Field K] [LinearOrder K]

/-- What the timesteps with the given ice and ejecta bring less what they take, were there always ice to take:
`ed` at each timestep that is not shielded. -/
def balance (shield ed : K) (r : List (K × K)) : K :=
  (r.map Prod.fst).sum - ed * ((r.filter fun p => decide (p.2 ≤ shield)).length : K)

/-- The balances of all periods that begin at timestep `k` or later and last to the end. -/
def balancesFrom (shield ed : K) (r : List (K × K)) (k : Nat) : Set K :=
  {x | ∃ j, k ≤ j ∧ j ≤ r.length ∧ x = balance shield ed (r.drop j)}

end MoonPIES.Spec
