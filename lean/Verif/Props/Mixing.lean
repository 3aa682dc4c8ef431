import Verif.Model.Flux
import Mathlib.Analysis.SpecialFunctions.Pow.Real
import Mathlib.Tactic.Linarith
import Mathlib.Tactic.NormNum
import Mathlib.Tactic.Positivity

/-!
# C49: mixing ratio
-/

namespace MoonPIES

open Real

/-- **C49** Petro adjustment: never above the unadjusted ratio, equal to it up to 5, above 5
the excess is halved (so continuous at 5), and never below 5 where the ratio exceeds 5. -/
theorem C49_petro (a b d : ℝ) :
    ∃ m p, mixingRatio false a b (some d) = some m ∧ mixingRatio true a b (some d) = some p ∧
      m = a * (d / 1000) ^ b ∧ p ≤ m ∧ (m ≤ 5 → p = m) ∧ (5 < m → 5 < p ∧ p - 5 = (m - 5) / 2) := by
  refine ⟨a * (d * 1e-3) ^ b, _, rfl, rfl, ?_, ?_, ?_, ?_⟩
  · congr 2; norm_num [div_eq_mul_inv]
  · split_ifs with h
    · linarith
    · exact le_refl _
  · intro h; rw [if_neg (not_lt.2 h)]
  · intro h; rw [if_pos h]; constructor <;> linarith

/-- **C49** with or without the adjustment the ratio strictly increases with distance. -/
theorem C49_increasing (petro : Bool) (a b d e : ℝ) (ha : 0 < a) (hb : 0 < b) (hd : 0 ≤ d)
    (hde : d < e) :
    ∃ x y, mixingRatio petro a b (some d) = some x ∧ mixingRatio petro a b (some e) = some y ∧
      0 ≤ x ∧ x < y := by
  have h1 : a * (d * 1e-3) ^ b < a * (e * 1e-3) ^ b := by
    apply mul_lt_mul_of_pos_left _ ha
    apply rpow_lt_rpow (by positivity) _ hb
    linarith
  have h0 : 0 ≤ a * (d * 1e-3) ^ b := by positivity
  cases petro
  · exact ⟨_, _, rfl, rfl, h0, h1⟩
  · refine ⟨_, _, rfl, rfl, ?_, ?_⟩
    · split_ifs <;> linarith
    · split_ifs <;> linarith

/-- **C49** missing distances stay missing, and only those. -/
theorem C49_missing (petro : Bool) (a b : ℝ) (d : Option ℝ) :
    mixingRatio petro a b d = none ↔ d = none := by
  cases d with
  | none => simp [mixingRatio]
  | some d => cases petro <;> simp [mixingRatio]

/-- Linear law: 10 becomes 7.5, 4 stays. -/
example : mixingRatio true 1 1 (some 10000) = some 7.5 ∧ mixingRatio true 1 1 (some 4000) = some 4 := by
  constructor
  · simp only [mixingRatio, rpow_one]; norm_num
  · simp only [mixingRatio, rpow_one]; norm_num

end MoonPIES
