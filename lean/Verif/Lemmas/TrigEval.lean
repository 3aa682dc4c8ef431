import Mathlib.Analysis.Complex.Exponential
import Mathlib.Analysis.Real.Pi.Bounds
import Mathlib.Analysis.SpecialFunctions.Trigonometric.Bounds
import Mathlib.Data.Rat.Floor

/-!
# Rational bounds for cosines

`cosQ x` is a Taylor polynomial of the cosine at a rational number, within 10⁻⁹ of it for
`|x| ≤ 7`; `cosDegQ q` does the same for an angle of `q` degrees, `|q| ≤ 400`, within 10⁻⁸.
-/

namespace MoonPIES

open Real

/-- `1 - y/((k+1)(k+2)) * (1 - y/((k+3)(k+4)) * …)` with `n` levels: Taylor polynomial of the
cosine in `y = x²` for `k = 0`. -/
def cosHorner {F : Type} [DivisionRing F] (y : F) : Nat → Nat → F
  | 0, _ => 1
  | n + 1, k => 1 - y / ((k + 1) * (k + 2) : Nat) * cosHorner y n (k + 2)

theorem cosHorner_eq (y : ℝ) (n : Nat) : ∀ k, cosHorner y n k =
    ∑ i ∈ Finset.range (n + 1), (-y) ^ i * (k.factorial : ℝ) / ((k + 2 * i).factorial : ℝ) := by
  induction n with
  | zero =>
    intro k
    have : (k.factorial : ℝ) ≠ 0 := by exact_mod_cast k.factorial_ne_zero
    simp [cosHorner, div_self this]
  | succ n ih =>
    intro k
    rw [Finset.sum_range_succ', cosHorner, ih (k + 2)]
    have h0 : (k.factorial : ℝ) ≠ 0 := by exact_mod_cast k.factorial_ne_zero
    have e : ((k + 2).factorial : ℝ) = ((k + 1) * (k + 2) : Nat) * (k.factorial : ℝ) := by
      rw [Nat.factorial_succ, Nat.factorial_succ]; push_cast; ring
    have hk : (((k + 1) * (k + 2) : Nat) : ℝ) ≠ 0 := by
      exact_mod_cast (by positivity : (k + 1) * (k + 2) ≠ 0)
    simp only [pow_zero, one_mul, Nat.mul_zero, Nat.add_zero, div_self h0]
    rw [Finset.mul_sum, sub_eq_add_neg, add_comm, ← Finset.sum_neg_distrib]
    congr 1
    apply Finset.sum_congr rfl
    intro i _
    rw [e, show k + 2 * (i + 1) = k + 2 + 2 * i by ring, pow_succ]
    field_simp

theorem cos_taylor (x : ℝ) (n : Nat) (h : |x| ≤ n + 1) :
    |cos x - cosHorner (x ^ 2) n 0| ≤ |x| ^ (2 * n + 1) / (2 * n + 1).factorial * 2 := by
  have hb := Complex.exp_bound' (x := x * Complex.I) (n := 2 * n + 1) (by
    rw [norm_mul, Complex.norm_I, mul_one, Complex.norm_real, Real.norm_eq_abs, div_le_iff₀
      (by positivity)]
    push_cast
    linarith)
  rw [norm_mul, Complex.norm_I, mul_one, Complex.norm_real, Real.norm_eq_abs] at hb
  have hre := (Complex.abs_re_le_norm _).trans hb
  rw [Complex.sub_re, Complex.exp_ofReal_mul_I_re] at hre
  have e : (∑ m ∈ Finset.range (2 * n + 1), ((x : ℂ) * Complex.I) ^ m / (m.factorial : ℂ)).re =
      cosHorner (x ^ 2) n 0 := by
    rw [cosHorner_eq, Complex.re_sum]
    clear hre hb h
    induction n with
    | zero => simp
    | succ n ih =>
      rw [show 2 * (n + 1) + 1 = 2 * n + 1 + 1 + 1 by ring, Finset.sum_range_succ,
        Finset.sum_range_succ, ih, Finset.sum_range_succ _ (n + 1), add_assoc]
      congr 1
      have h1 : (((x : ℂ) * Complex.I) ^ (2 * n + 1) / ((2 * n + 1).factorial : ℂ)).re = 0 := by
        rw [mul_pow, pow_succ Complex.I, pow_mul, Complex.I_sq]
        have : (x : ℂ) ^ (2 * n + 1) * ((-1) ^ n * Complex.I) / ((2 * n + 1).factorial : ℂ) =
            ((x ^ (2 * n + 1) * (-1) ^ n / ((2 * n + 1).factorial : ℝ) : ℝ) : ℂ) * Complex.I := by
          push_cast; ring
        rw [this, Complex.re_ofReal_mul, Complex.I_re, mul_zero]
      have h2 : (((x : ℂ) * Complex.I) ^ (2 * n + 1 + 1) / ((2 * n + 1 + 1).factorial : ℂ)).re =
          (-x ^ 2) ^ (n + 1) / ((2 * (n + 1)).factorial : ℝ) := by
        rw [show 2 * n + 1 + 1 = 2 * (n + 1) by ring, mul_pow, pow_mul Complex.I, Complex.I_sq]
        have : (x : ℂ) ^ (2 * (n + 1)) * (-1) ^ (n + 1) / ((2 * (n + 1)).factorial : ℂ) =
            (((-x ^ 2) ^ (n + 1) / ((2 * (n + 1)).factorial : ℝ) : ℝ) : ℂ) := by
          push_cast
          rw [neg_pow (x ^ 2 : ℂ), ← pow_mul]
          ring
        rw [this, Complex.ofReal_re]
      rw [h1, h2]
      simp
  rwa [e] at hre

/-- Rational approximation of the cosine of `x`. -/
def cosQ (x : ℚ) : ℚ := cosHorner (x ^ 2) 20 0

theorem cosHorner_cast (y : ℚ) (n : Nat) : ∀ k, ((cosHorner y n k : ℚ) : ℝ) =
    cosHorner (y : ℝ) n k := by
  induction n with
  | zero => intro k; simp [cosHorner]
  | succ n ih => intro k; simp [cosHorner, ih]

theorem cosQ_near (x : ℚ) (h : |(x : ℝ)| ≤ 7) : |cos x - (cosQ x : ℝ)| ≤ 1e-9 := by
  have := cos_taylor x 20 (by push_cast; linarith)
  unfold cosQ
  rw [cosHorner_cast]
  push_cast
  refine this.trans ?_
  have hp : |(x : ℝ)| ^ (2 * 20 + 1) ≤ 7 ^ (2 * 20 + 1) := pow_le_pow_left₀ (abs_nonneg _) h _
  have : |(x : ℝ)| ^ (2 * 20 + 1) / ((2 * 20 + 1).factorial : ℝ) * 2 ≤
      7 ^ (2 * 20 + 1) / ((2 * 20 + 1).factorial : ℝ) * 2 := by gcongr
  refine this.trans ?_
  norm_num [Nat.factorial]

/-- Nearest multiple of 10⁻¹¹ below. -/
def chop (x : ℚ) : ℚ := (⌊x * 100000000000⌋ : ℚ) / 100000000000

theorem chop_near (x : ℚ) : |(x : ℝ) - (chop x : ℝ)| ≤ 1e-11 := by
  unfold chop
  have h1 := Int.floor_le (x * 100000000000)
  have h2 := Int.lt_floor_add_one (x * 100000000000)
  have h1' : ((⌊x * 100000000000⌋ : ℚ) : ℝ) ≤ x * 100000000000 := by exact_mod_cast h1
  have h2' : (x : ℝ) * 100000000000 < ((⌊x * 100000000000⌋ : ℚ) : ℝ) + 1 := by exact_mod_cast h2
  push_cast at *
  rw [abs_le]
  constructor <;> linarith

/-- Rational approximation of the cosine of an angle in radians. -/
def cosRadQ (x : ℚ) : ℚ := chop (cosQ (chop x))

theorem cosRadQ_near (x : ℚ) (h : |(x : ℝ)| ≤ 6.99) : |cos x - (cosRadQ x : ℝ)| ≤ 2e-9 := by
  have h1 := chop_near x
  have h2 := chop_near (cosQ (chop x))
  have h3 : |((chop x : ℚ) : ℝ)| ≤ 7 := by
    rw [abs_le] at *
    constructor <;> linarith [h1.1, h1.2, h.1, h.2]
  have h4 := cosQ_near _ h3
  have h5 := (abs_cos_sub_cos_le (x : ℝ) (chop x : ℝ)).trans h1
  unfold cosRadQ
  rw [abs_le] at *
  constructor <;> linarith [h1.1, h1.2, h2.1, h2.2, h4.1, h4.2, h5.1, h5.2]

/-- Rational approximation of the cosine of an angle in degrees. -/
def cosDegQ (q : ℚ) : ℚ := cosRadQ (q * 3.14159265358979 / 180)

theorem cosDegQ_near (q : ℚ) (h : |(q : ℝ)| ≤ 400) : |cos (q * π / 180) - (cosDegQ q : ℝ)| ≤ 1e-8 := by
  have hp1 := pi_gt_d20
  have hp2 := pi_lt_d20
  have e : ((q * 3.14159265358979 / 180 : ℚ) : ℝ) = q * 3.14159265358979 / 180 := by push_cast; ring
  have h1 := cosRadQ_near (q * 3.14159265358979 / 180) (by
    rw [e, abs_le]; rw [abs_le] at h
    constructor <;> linarith [h.1, h.2])
  have h2 := abs_cos_sub_cos_le ((q : ℝ) * π / 180) ((q * 3.14159265358979 / 180 : ℚ) : ℝ)
  have h3 : |(q : ℝ) * π / 180 - ((q * 3.14159265358979 / 180 : ℚ) : ℝ)| ≤ 1e-10 := by
    rw [e, show (q : ℝ) * π / 180 - q * 3.14159265358979 / 180 = q * ((π - 3.14159265358979) / 180)
      by ring, abs_mul]
    have : |(π - 3.14159265358979) / 180| ≤ 1e-13 := by
      rw [abs_le]; constructor <;> linarith
    calc |(q : ℝ)| * |(π - 3.14159265358979) / 180| ≤ 400 * 1e-13 := by gcongr
      _ ≤ 1e-10 := by norm_num
  have h4 := h2.trans h3
  unfold cosDegQ
  rw [abs_le] at *
  constructor <;> linarith [h1.1, h1.2, h4.1, h4.2]

/-- The approximations are good ones: the cosine of 60° and of 137.3°. -/
example : |cosDegQ 60 - 1 / 2| < 1e-8 ∧ |cosDegQ 137.3 + 0.734914572| < 1e-7 := by decide +kernel

end MoonPIES
