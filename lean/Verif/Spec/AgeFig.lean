import Verif.Spec.RngArg

/-!
# Specification: histograms of crater ages
-/

namespace MoonPIES.Spec

/-- `h` is the histogram of the ages `ms`, in units of 10 million years, over the 260 ages from 1.60 to
4.19 billion years: one bar per age. -/
def AgeHist (ms : List Int) (h : List Nat) : Prop :=
  h.length = 260 ∧ ∀ k : Nat, k < 260 → h[k]? = some (ms.count (160 + (k : Int)))

/-- `m`, in units of 10 million years, is the age closest to `mean`, in billion years, plus the
standardised draw `z` times a quarter of the sum of the error bars of the listed crater. -/
def AgeDrawn (raw : RawCrater) (mean z : ℝ) (m : Int) : Prop :=
  |(m : ℝ) / 100 - (mean + (raw.age_low + raw.age_upp) / 4 * z)| ≤ 0.005

/-- Craters with a name of their own and error bars. -/
structure CratersOK (craters : List RawCrater) : Prop where
  names : (craters.map (·.cname)).Nodup
  bars : ∀ r ∈ craters, 0 ≤ r.age_low ∧ 0 ≤ r.age_upp ∧ 0 < r.age_low + r.age_upp

end MoonPIES.Spec
