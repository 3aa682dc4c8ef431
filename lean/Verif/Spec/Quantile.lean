import Verif.Model.Quantile

/-!
# Specification vocabulary for quantiles
-/

namespace MoonPIES.Spec

variable {K : Type} [Field K] [LinearOrder K] [FloorRing K]

/-- `a` is the value in place `k`, counting from 0, of the values in increasing order: at most `k`
of the values are smaller, and more than `k` are not larger. -/
def Ranked (l : List K) (k : Nat) (a : K) : Prop :=
  a ∈ l ∧ l.countP (fun x => decide (x < a)) ≤ k ∧ k < l.countP (fun x => decide (x ≤ a))

/-- `v` is on the straight line through the ranked values, with the first at 0 and the last at 1,
where the line has gone the fraction `q` of its way. -/
def Quantile (l : List K) (q v : K) : Prop :=
  ∃ (k : Nat) (a b w : K), Ranked l k a ∧ Ranked l (min (k + 1) (l.length - 1)) b ∧ 0 ≤ w ∧ w < 1 ∧
    (k : K) + w = q * ((l.length : K) - 1) ∧ v = (1 - w) * a + w * b

end MoonPIES.Spec
