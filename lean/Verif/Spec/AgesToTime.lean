import Mathlib.Algebra.Order.Field.Basic
import Mathlib.Algebra.Order.Group.Unbundled.Abs

/-!
# Specification of "nearest model time"
-/

namespace MoonPIES.Spec

variable {K : Type} [Field K] [LinearOrder K]

/-- Index `i` is the place for `age`: its time is at minimal distance, and it is
the first index with that distance. -/
def Nearest (time : List K) (age : K) (i : Nat) : Prop :=
  ∃ t, time[i]? = some t ∧ (∀ (j : Nat) t', time[j]? = some t' → |t - age| ≤ |t' - age|) ∧
    ∀ (j : Nat) t', j < i → time[j]? = some t' → |t - age| < |t' - age|

/-- `age` lies in the range of `time`, widened by the relative tolerance. -/
def InRange (tol : K) (time : List K) (age : K) : Prop :=
  (∃ lo ∈ time, (∀ t ∈ time, lo ≤ t) ∧ lo - |lo| * tol ≤ age) ∧
  (∃ hi ∈ time, (∀ t ∈ time, t ≤ hi) ∧ age ≤ hi + |hi| * tol)

end MoonPIES.Spec
