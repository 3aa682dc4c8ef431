import Mathlib.Algebra.Order.BigOperators.Group.List
import Mathlib.Algebra.Order.Field.Basic

/-!
# Independent deliveries with finite laws
-/

namespace MoonPIES.Spec

variable {K : Type} [Field K] [LinearOrder K]

/-- A finite law: values with their probabilities. -/
abbrev Law (K : Type) := List (K × K)

/-- Probabilities that add up to one, on values that are not negative. -/
structure IsLaw (l : Law K) : Prop where
  weight : ∀ q ∈ l, 0 ≤ q.2
  total : (l.map Prod.snd).sum = 1
  value : ∀ q ∈ l, 0 ≤ q.1

/-- The mean of `f` of a value. -/
def meanLaw (l : Law K) (f : K → K) : K := (l.map fun q => q.2 * f q.1).sum

/-- The variance of `f` of a value. -/
def varLaw (l : Law K) (f : K → K) : K := meanLaw l fun x => (f x - meanLaw l f) ^ 2

/-- The mean of `f` of a list of values drawn independently, one from each law. -/
def meanLaws : List (Law K) → (List K → K) → K
  | [], f => f []
  | l :: ls, f => meanLaw l fun x => meanLaws ls fun xs => f (x :: xs)

/-- The variance of `f` of a list of values drawn independently. -/
def varLaws (ls : List (Law K)) (f : List K → K) : K := meanLaws ls fun xs => (f xs - meanLaws ls f) ^ 2

end MoonPIES.Spec
