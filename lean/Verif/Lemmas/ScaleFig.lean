import Verif.Model.ScaleFig
import Verif.Props.Scaling
import Verif.Props.Prieur

/-!
# Bounds on the crater laws at given sizes
-/

namespace MoonPIES

open Real

theorem sin_45 : sin (45 * π / 180) = √2 / 2 := by
  rw [show 45 * π / 180 = π / 4 by ring, sin_pi_div_four]

theorem half_root (n : Nat) : (√2 / 2) ^ (2 * n) = ((1 : ℝ) / 2) ^ n := by
  rw [pow_mul, div_pow, sq_sqrt (by norm_num)]
  norm_num

/-- `x^p`, `p` a fraction of `n`, to the power `n`. -/
theorem rpow_pow {x p : ℝ} (hx : 0 ≤ x) (n m : Nat) (h : p * n = m) : (x ^ p) ^ n = x ^ m := by
  rw [← rpow_natCast, ← rpow_mul hx, h, rpow_natCast]

theorem rpow_pow_neg {x p : ℝ} (hx : 0 ≤ x) (n m : Nat) (h : p * n = -(m : ℝ)) :
    (x ^ p) ^ n = (x ^ m)⁻¹ := by
  rw [← rpow_natCast, ← rpow_mul hx, h, rpow_neg hx, rpow_natCast]

theorem collins_pow (L : ℝ) (hL : 0 ≤ L) : collinsForward L 20000 1300 1500 1.62 45 ^ 150 =
    1.161 ^ 150 * (1300 / 1500) ^ 50 * L ^ 117 * 20000 ^ 66 * (1.62 ^ 33)⁻¹ * (1 / 2) ^ 25 := by
  unfold collinsForward
  rw [sin_45]
  simp only [mul_pow]
  rw [rpow_pow (by norm_num) 150 50 (by norm_num), rpow_pow hL 150 117 (by norm_num),
    rpow_pow (by norm_num) 150 66 (by norm_num), rpow_pow_neg (by norm_num) 150 33 (by norm_num),
    rpow_pow (by positivity) 150 50 (by norm_num), show 50 = 2 * 25 from rfl, half_root]

theorem johnson_pow (L : ℝ) (hL : 0 ≤ L) : johnsonForward L 20000 1300 1500 1.62 45 18000 ^ 100 =
    1.52 ^ 100 * (1300 / 1500) ^ 38 * L ^ 88 * 20000 ^ 50 * (1.62 ^ 25)⁻¹ * (18000 ^ 13)⁻¹ *
      (1 / 2) ^ 19 := by
  unfold johnsonForward
  rw [sin_45]
  simp only [mul_pow]
  rw [rpow_pow (by norm_num) 100 38 (by norm_num), rpow_pow hL 100 88 (by norm_num),
    rpow_pow (by norm_num) 100 50 (by norm_num), rpow_pow_neg (by norm_num) 100 25 (by norm_num),
    rpow_pow_neg (by norm_num) 100 13 (by norm_num),
    rpow_pow (by positivity) 100 38 (by norm_num), show 38 = 2 * 19 from rfl, half_root]

/-- A length is below `b` when the crater is smaller than that of `b`. -/
theorem collins_lt {t b : ℝ} (ht : 0 < t) (hb : 0 < b)
    (h : t < collinsForward b 20000 1300 1500 1.62 45) : diam2lenCollins t 20000 1300 1500 1.62 45 < b := by
  have := (C39_collins_mono t _ 20000 20000 1300 1500 1.62 45 ht (by norm_num) (by norm_num) (by norm_num)
    (by norm_num) (by norm_num) (by norm_num)).1 h
  rwa [C39_collins_unique b 20000 1300 1500 1.62 45 hb (by norm_num) (by norm_num) (by norm_num)
    (by norm_num) (by norm_num) (by norm_num)] at this

theorem collins_gt {t b : ℝ} (hb : 0 < b) (h0 : 0 < collinsForward b 20000 1300 1500 1.62 45)
    (h : collinsForward b 20000 1300 1500 1.62 45 < t) : b < diam2lenCollins t 20000 1300 1500 1.62 45 := by
  have := (C39_collins_mono _ t 20000 20000 1300 1500 1.62 45 h0 (by norm_num) (by norm_num) (by norm_num)
    (by norm_num) (by norm_num) (by norm_num)).1 h
  rwa [C39_collins_unique b 20000 1300 1500 1.62 45 hb (by norm_num) (by norm_num) (by norm_num)
    (by norm_num) (by norm_num) (by norm_num)] at this

theorem johnson_lt {t b : ℝ} (ht : 0 < t) (hb : 0 < b)
    (h : t < johnsonForward b 20000 1300 1500 1.62 45 18000) :
    diam2lenJohnson t 20000 1300 1500 1.62 45 18000 < b := by
  have := (C39_johnson_mono t _ 20000 20000 1300 1500 1.62 45 18000 ht (by norm_num) (by norm_num)
    (by norm_num) (by norm_num) (by norm_num) (by norm_num) (by norm_num)).1 h
  rwa [C39_johnson_unique b 20000 1300 1500 1.62 45 18000 hb (by norm_num) (by norm_num) (by norm_num)
    (by norm_num) (by norm_num) (by norm_num) (by norm_num)] at this

theorem johnson_gt {t b : ℝ} (hb : 0 < b) (h0 : 0 < johnsonForward b 20000 1300 1500 1.62 45 18000)
    (h : johnsonForward b 20000 1300 1500 1.62 45 18000 < t) :
    b < diam2lenJohnson t 20000 1300 1500 1.62 45 18000 := by
  have := (C39_johnson_mono _ t 20000 20000 1300 1500 1.62 45 18000 h0 (by norm_num) (by norm_num)
    (by norm_num) (by norm_num) (by norm_num) (by norm_num) (by norm_num)).1 h
  rwa [C39_johnson_unique b 20000 1300 1500 1.62 45 18000 hb (by norm_num) (by norm_num) (by norm_num)
    (by norm_num) (by norm_num) (by norm_num) (by norm_num)] at this

theorem collinsForward_pos (b : ℝ) (hb : 0 < b) : 0 < collinsForward b 20000 1300 1500 1.62 45 := by
  unfold collinsForward; rw [sin_45]; positivity

theorem johnsonForward_pos (b : ℝ) (hb : 0 < b) :
    0 < johnsonForward b 20000 1300 1500 1.62 45 18000 := by
  unfold johnsonForward; rw [sin_45]; positivity

theorem collins_12000 : 741 < diam2lenCollins 12000 20000 1300 1500 1.62 45 ∧
    diam2lenCollins 12000 20000 1300 1500 1.62 45 < 743 := by
  constructor
  · apply collins_gt (by norm_num) (collinsForward_pos _ (by norm_num))
    apply lt_of_pow_lt_pow_left₀ 150 (by norm_num)
    rw [collins_pow _ (by norm_num)]
    norm_num
  · apply collins_lt (by norm_num) (by norm_num)
    apply lt_of_pow_lt_pow_left₀ 150 (collinsForward_pos _ (by norm_num)).le
    rw [collins_pow _ (by norm_num)]
    norm_num

theorem johnson_14400 : diam2lenJohnson 14400 20000 1300 1500 1.62 45 18000 < 720 := by
  apply johnson_lt (by norm_num) (by norm_num)
  apply lt_of_pow_lt_pow_left₀ 100 (johnsonForward_pos _ (by norm_num)).le
  rw [johnson_pow _ (by norm_num)]
  norm_num

theorem johnson_15000 : 749 < diam2lenJohnson 15000 20000 1300 1500 1.62 45 18000 ∧
    diam2lenJohnson 15000 20000 1300 1500 1.62 45 18000 < 751 := by
  constructor
  · apply johnson_gt (by norm_num) (johnsonForward_pos _ (by norm_num))
    apply lt_of_pow_lt_pow_left₀ 100 (by norm_num)
    rw [johnson_pow _ (by norm_num)]
    norm_num
  · apply johnson_lt (by norm_num) (by norm_num)
    apply lt_of_pow_lt_pow_left₀ 100 (johnsonForward_pos _ (by norm_num)).le
    rw [johnson_pow _ (by norm_num)]
    norm_num

end MoonPIES
