import Verif.Spec.Column

/-!
# Rounding errors

What is assumed of rounded numbers beyond `Rounding`.
-/

namespace MoonPIES.Spec

variable {K : Type} [Field K] [LinearOrder K]

/-- Each rounding is off by at most the share `u` of the exact number (IEEE
round-to-nearest: `2^-53` for doubles, `2^-24` for single precision, as long as
nothing overflows or underflows). -/
def RelErr (fl : K → K) (u : K) : Prop := ∀ x, |fl x - x| ≤ u * |x|

/-- `agg` is a usable sum of up to `n` non-negative numbers: its results are
representable, not negative, and within the share `v` of the exact sum. -/
structure SumOk (fl : K → K) (agg : List K → K) (n : Nat) (v : K) : Prop where
  repr : ∀ l, (∀ x ∈ l, Repr fl x) → Repr fl (agg l)
  nonneg : ∀ l, (∀ x ∈ l, 0 ≤ x) → 0 ≤ agg l
  close : ∀ l : List K, l.length ≤ n → (∀ x ∈ l, 0 ≤ x) →
    (1 - v) * l.sum ≤ agg l ∧ agg l ≤ (1 + v) * l.sum

end MoonPIES.Spec
