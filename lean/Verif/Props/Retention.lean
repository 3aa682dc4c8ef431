import Verif.Model.Retention
import Mathlib.Analysis.Complex.ExponentialBounds
import Mathlib.Tactic.Linarith
import Mathlib.Tactic.NormNum
import Mathlib.Tactic.Positivity

/-!
# C33: retention factor
-/

namespace MoonPIES

theorem pow_4_16_lt : (10 : ℝ) ^ (4.16 : ℝ) < 16600 := by
  have h : ((10 : ℝ) ^ (4.16 : ℝ)) ^ (25 : ℕ) < (16600 : ℝ) ^ (25 : ℕ) := by
    rw [← Real.rpow_mul_natCast (by norm_num)]
    have e : (4.16 : ℝ) * ((25 : ℕ) : ℝ) = ((104 : ℕ) : ℝ) := by norm_num
    rw [e, Real.rpow_natCast]
    norm_num
  exact lt_of_pow_lt_pow_left₀ 25 (by norm_num) h

theorem pow_4_16_gt : (16600 : ℝ) < (10.5 : ℝ) ^ (4.16 : ℝ) := by
  have h : (16600 : ℝ) ^ (25 : ℕ) < ((10.5 : ℝ) ^ (4.16 : ℝ)) ^ (25 : ℕ) := by
    rw [← Real.rpow_mul_natCast (by norm_num)]
    have e : (4.16 : ℝ) * ((25 : ℕ) : ℝ) = ((104 : ℕ) : ℝ) := by norm_num
    rw [e, Real.rpow_natCast]
    norm_num
  exact lt_of_pow_lt_pow_left₀ 25 (by positivity) h

theorem pow_4_16_ge10 : (14400 : ℝ) < (10 : ℝ) ^ (4.16 : ℝ) := by
  have h : (14400 : ℝ) ^ (25 : ℕ) < ((10 : ℝ) ^ (4.16 : ℝ)) ^ (25 : ℕ) := by
    rw [← Real.rpow_mul_natCast (by norm_num)]
    have e : (4.16 : ℝ) * ((25 : ℕ) : ℝ) = ((104 : ℕ) : ℝ) := by norm_num
    rw [e, Real.rpow_natCast]
    norm_num
  exact lt_of_pow_lt_pow_left₀ 25 (by positivity) h

/-- `exp (m/n)` against a rational, through integer powers of `e`. -/
theorem exp_lt_of (x b : ℝ) (n m : ℕ) (hn : n ≠ 0) (hb : 0 ≤ b) (hx : x * n = m)
    (h : (2.7182818286 : ℝ) ^ m < b ^ n) : Real.exp x < b := by
  apply lt_of_pow_lt_pow_left₀ n hb
  have : Real.exp x ^ n = Real.exp 1 ^ m := by
    rw [← Real.exp_nat_mul, ← Real.exp_nat_mul, mul_one, mul_comm, hx]
  rw [this]
  calc Real.exp 1 ^ m ≤ (2.7182818286 : ℝ) ^ m :=
        pow_le_pow_left₀ (Real.exp_pos _).le Real.exp_one_lt_d9.le m
    _ < b ^ n := h

theorem exp_gt_of (x b : ℝ) (n m : ℕ) (hx : x * n = m)
    (h : b ^ n < (2.7182818283 : ℝ) ^ m) : b < Real.exp x := by
  apply lt_of_pow_lt_pow_left₀ n (Real.exp_pos _).le
  have : Real.exp x ^ n = Real.exp 1 ^ m := by
    rw [← Real.exp_nat_mul, ← Real.exp_nat_mul, mul_one, mul_comm, hx]
  rw [this]
  calc b ^ n < (2.7182818283 : ℝ) ^ m := h
    _ ≤ Real.exp 1 ^ m := pow_le_pow_left₀ (by norm_num) Real.exp_one_gt_d9.le m

/-- Retention at or above 10 km/s in Cannon mode. -/
theorem cannon_fast (c : Bool) (v : ℝ) (h : 10000 ≤ v) :
    iceRetention "cannon" c v = 36.26 * Real.exp (-(0.3464 * (v / 1000))) := by
  have h1 : (10 : ℝ) ≤ v * 1e-3 := by norm_num; linarith
  have h2 : ¬ v * 1e-3 < 10 := not_lt.2 h1
  have e : (-0.3464 : ℝ) * (v * 1e-3) = -(0.3464 * (v / 1000)) := by ring
  have hp : 0 < 36.26 * Real.exp (-(0.3464 * (v / 1000))) := by positivity
  unfold iceRetention
  simp only [if_true, h1, h2, e, if_false]
  cases c <;> simp [not_lt.2 hp.le]

/-- Retention at or above 10 km/s in MoonPIES mode. -/
theorem moonpies_fast (c : Bool) (v : ℝ) (h : 10000 ≤ v) :
    iceRetention "moonpies" c v = 16600 / (v / 1000) ^ (4.16 : ℝ) := by
  have h1 : (10 : ℝ) ≤ v * 1e-3 := by norm_num; linarith
  have h2 : ¬ v * 1e-3 < 10 := not_lt.2 h1
  have h3 : (0 : ℝ) ≤ v / 1000 := by linarith
  have e0 : v * 1e-3 = v / 1000 := by ring
  have e : (1.66e4 : ℝ) * (v * 1e-3) ^ (-4.16 : ℝ) = 16600 / (v / 1000) ^ (4.16 : ℝ) := by
    rw [e0, Real.rpow_neg h3, div_eq_mul_inv]; congr 1; norm_num
  have hp : 0 ≤ 16600 / (v / 1000) ^ (4.16 : ℝ) := by positivity
  unfold iceRetention
  have hm : ("moonpies" : String) ≠ "cannon" := by decide
  simp only [if_true, h1, h2, e, if_false, hm]
  cases c <;> simp [not_lt.2 hp]

/-- Retention below 10 km/s, every mode. -/
theorem slow (mode : String) (c : Bool) (v : ℝ) (h : v < 10000) :
    iceRetention mode c v = if c then 1 else 1 / 2 := by
  have h1 : ¬ (10 : ℝ) ≤ v * 1e-3 := by norm_num; linarith
  have h2 : v * 1e-3 < 10 := not_le.1 h1
  unfold iceRetention
  simp only [h1, h2, if_true, if_false]
  cases c <;> simp <;> norm_num

/-- **C33 refuted (Cannon mode).** At 10 km/s more ice is retained than arrives. -/
theorem C33_cannon_refuted : ¬ ∀ (c : Bool) (v : ℝ), 0 < v → iceRetention "cannon" c v ≤ 1 := by
  intro h
  have h1 := h false 10000 (by norm_num)
  rw [cannon_fast false 10000 (le_refl _)] at h1
  have h2 : Real.exp (0.3464 * (10000 / 1000)) < 36.26 := by
    have e : (0.3464 : ℝ) * (10000 / 1000) ≤ 7 / 2 := by norm_num
    refine (Real.exp_le_exp.2 e).trans_lt ?_
    exact exp_lt_of (7 / 2) 36.26 2 7 (by norm_num) (by norm_num) (by norm_num) (by norm_num)
  rw [Real.exp_neg, ← div_eq_mul_inv, div_le_one (Real.exp_pos _)] at h1
  linarith

/-- **C33 refuted (MoonPIES mode).** -/
theorem C33_moonpies_refuted :
    ¬ ∀ (c : Bool) (v : ℝ), 0 < v → iceRetention "moonpies" c v ≤ 1 := by
  intro h
  have h1 := h false 10000 (by norm_num)
  rw [moonpies_fast false 10000 (le_refl _)] at h1
  have e : (10000 / 1000 : ℝ) = 10 := by norm_num
  rw [e, div_le_one (by positivity)] at h1
  linarith [pow_4_16_lt]

/-- **C33 (partial).** Full claim: at most 1 for every speed (refuted).  For every mode,
impactor and positive speed the factor is in [0, 1.2], and it is at most 1 below 10
km/s and from 10.5 km/s on. -/
theorem C33_range_partial (mode : String) (c : Bool) (v : ℝ) :
    0 ≤ iceRetention mode c v ∧ iceRetention mode c v ≤ 1.2 ∧
    (v < 10000 ∨ 10500 ≤ v → iceRetention mode c v ≤ 1) := by
  rcases lt_or_ge v 10000 with hv | hv
  · rw [slow mode c v hv]
    cases c <;> norm_num
  by_cases hc : mode = "cannon"
  · subst hc
    rw [cannon_fast c v hv]
    refine ⟨by positivity, ?_, ?_⟩
    · have h1 : Real.exp (3.45) ≤ Real.exp (0.3464 * (v / 1000)) :=
        Real.exp_le_exp.2 (by norm_num; linarith)
      have h2 : (30.3 : ℝ) < Real.exp 3.45 := exp_gt_of 3.45 30.3 20 69 (by norm_num) (by norm_num)
      rw [Real.exp_neg, ← div_eq_mul_inv, div_le_iff₀ (Real.exp_pos _)]
      have h3 := h2.trans_le h1
      norm_num at h3 ⊢
      linarith
    · intro h
      have hv2 : 10500 ≤ v := by rcases h with h | h <;> linarith
      have h1 : Real.exp (3.6) ≤ Real.exp (0.3464 * (v / 1000)) :=
        Real.exp_le_exp.2 (by norm_num; linarith)
      have h2 : (36.26 : ℝ) < Real.exp 3.6 := exp_gt_of 3.6 36.26 5 18 (by norm_num) (by norm_num)
      rw [Real.exp_neg, ← div_eq_mul_inv, div_le_one (Real.exp_pos _)]
      linarith
  by_cases hm : mode = "moonpies"
  · subst hm
    rw [moonpies_fast c v hv]
    have h10 : (10 : ℝ) ^ (4.16 : ℝ) ≤ (v / 1000) ^ (4.16 : ℝ) :=
      Real.rpow_le_rpow (by norm_num) (by linarith) (by norm_num)
    refine ⟨by positivity, ?_, ?_⟩
    · rw [div_le_iff₀ (by positivity)]
      have := pow_4_16_ge10
      norm_num at this h10 ⊢
      linarith
    · intro h
      have hv2 : 10500 ≤ v := by rcases h with h | h <;> linarith
      have h105 : (10.5 : ℝ) ^ (4.16 : ℝ) ≤ (v / 1000) ^ (4.16 : ℝ) :=
        Real.rpow_le_rpow (by norm_num) (by norm_num; linarith) (by norm_num)
      rw [div_le_one (by positivity)]
      linarith [pow_4_16_gt]
  · have h1 : (10 : ℝ) ≤ v * 1e-3 := by norm_num; linarith
    have h2 : ¬ v * 1e-3 < 10 := not_lt.2 h1
    unfold iceRetention
    simp only [hc, hm, h2, if_false]
    cases c <;> simp <;> norm_num

/-- **C33 (partial)** from 10 km/s on the factor strictly decreases with speed in both
documented modes, so the excess is confined to just above 10 km/s. -/
theorem C33_decreasing_partial (mode : String) (hm : mode = "cannon" ∨ mode = "moonpies") (c : Bool)
    (v w : ℝ) (hv : 10000 ≤ v) (hvw : v < w) : iceRetention mode c w < iceRetention mode c v := by
  rcases hm with rfl | rfl
  · rw [cannon_fast c v hv, cannon_fast c w (hv.trans hvw.le)]
    apply mul_lt_mul_of_pos_left _ (by norm_num)
    apply Real.exp_lt_exp.2
    norm_num
    linarith
  · rw [moonpies_fast c v hv, moonpies_fast c w (hv.trans hvw.le)]
    apply div_lt_div_of_pos_left (by norm_num) (by positivity)
    exact Real.rpow_lt_rpow (by linarith) (by linarith) (by norm_num)

/-- Slow asteroids keep half, slow comets everything. -/
example : iceRetention "moonpies" false 2380 = 1 / 2 ∧ iceRetention "moonpies" true 2380 = 1 := by
  constructor <;> rw [slow _ _ _ (by norm_num)] <;> norm_num

end MoonPIES
