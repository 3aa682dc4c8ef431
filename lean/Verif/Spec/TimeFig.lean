import Verif.Model.TimeFig

/-!
# Specification vocabulary for the ice by module against time
-/

namespace MoonPIES.Spec

/-- The time `x` lies in slice `i` of `n` equal slices of the range from `lo` to `hi`: after the
younger end, which only the first slice includes, and not after the older end. -/
def InSlice (lo hi : ℝ) (n i : Nat) (x : ℝ) : Prop :=
  (lo + (hi - lo) * i / n < x ∨ i = 0) ∧ x ≤ lo + (hi - lo) * (i + 1) / n

open Classical in
/-- The entries of a column at the times in a slice. -/
noncomputable def sliceOf (time col : List ℝ) (lo hi : ℝ) (n i : Nat) : List ℝ :=
  ((time.zip col).filter (fun p => decide (InSlice lo hi n i p.1))).map (·.2)

open Classical in
/-- The total of a column over the times that are not after `x`: as old as `x` or older. -/
noncomputable def totalBefore (time col : List ℝ) (x : ℝ) : ℝ :=
  (((time.zip col).filter (fun p => decide (x ≤ p.1))).map (·.2)).sum

/-- `lo` and `hi` are the least and the largest time. -/
def Range (time : List ℝ) (lo hi : ℝ) : Prop :=
  lo ∈ time ∧ hi ∈ time ∧ ∀ x ∈ time, lo ≤ x ∧ x ≤ hi

end MoonPIES.Spec
