import Verif.Model.Float
import Verif.Spec.StratFl
import Verif.Props.Rounding
import Mathlib.Tactic.Linarith
import Mathlib.Tactic.Positivity
import Mathlib.Tactic.Ring
import Mathlib.Tactic.NormNum

/-!
# Binary floating point: rounding is monotone, idempotent and accurate
-/

namespace MoonPIES

open Spec

set_option linter.unusedSectionVars false

variable {K : Type} [Field K] [LinearOrder K] [IsStrictOrderedRing K] [FloorRing K]

theorem two_zpow_pos (k : Int) : (0 : K) < 2 ^ k := by positivity

theorem log2_le_floatExp (lo : Option Int) (x : K) : Int.log 2 x ≤ floatExp lo x := by
  unfold floatExp; cases lo with
  | none => exact le_refl _
  | some m => exact le_max_right _ _

theorem floatExp_mono (lo : Option Int) {x y : K} (hx : 0 < x) (h : x ≤ y) :
    floatExp lo x ≤ floatExp lo y := by
  unfold floatExp; cases lo with
  | none => exact Int.log_mono_right hx h
  | some m => exact max_le_max (le_refl _) (Int.log_mono_right hx h)

theorem floatExp_eq_log (lo : Option Int) {x y : K} (h : floatExp lo x < floatExp lo y) :
    floatExp lo y = Int.log 2 y := by
  unfold floatExp at *; cases lo with
  | none => rfl
  | some m =>
    simp only [] at h ⊢
    rcases max_choice m (Int.log 2 y) with h1 | h1
    · rw [h1] at h; exact absurd (le_max_left m (Int.log 2 x)) (not_le.2 h)
    · exact h1

theorem lt_two_floatExp (lo : Option Int) (x : K) : x < 2 ^ (floatExp lo x + 1) := by
  have h := Int.lt_zpow_succ_log_self (b := 2) (by norm_num) x
  refine lt_of_lt_of_le (by exact_mod_cast h) ?_
  exact zpow_le_zpow_right₀ (by norm_num) (by have := log2_le_floatExp lo x; omega)

theorem two_log_le {x : K} (hx : 0 < x) : (2 : K) ^ Int.log 2 x ≤ x := by
  have h := Int.zpow_log_le_self (b := 2) (r := x) (by norm_num) hx
  exact_mod_cast h

theorem int_two_pow (n : Nat) : (((2 ^ n : Int)) : K) = 2 ^ (n : Int) := by
  rw [zpow_natCast]; push_cast; rfl

theorem zpow_split (p : Nat) (e : Int) : (2 : K) ^ e = 2 ^ (p : Int) * 2 ^ (e - p) := by
  rw [← zpow_add₀ (by norm_num)]; congr 1; ring

theorem roundPos_nonneg (p : Nat) (lo : Option Int) {x : K} (hx : 0 ≤ x) :
    0 ≤ roundPos p lo x := by
  unfold roundPos
  apply mul_nonneg _ (two_zpow_pos _).le
  have := roundHalfEven_mono (x := ((0 : Int) : K)) (y := x / 2 ^ (floatExp lo x - p))
    (by rw [Int.cast_zero]; exact div_nonneg hx (two_zpow_pos _).le)
  rw [roundHalfEven_int] at this
  exact_mod_cast this

/-- The digits of a rounded number. -/
theorem roundPos_digits (p : Nat) (lo : Option Int) (x : K) :
    roundHalfEven (x / 2 ^ (floatExp lo x - p)) ≤ 2 ^ (p + 1) := by
  have h1 : x / 2 ^ (floatExp lo x - p) ≤ ((2 ^ (p + 1) : Int) : K) := by
    rw [div_le_iff₀ (two_zpow_pos _), int_two_pow, ← zpow_add₀ (by norm_num)]
    have e : ((p + 1 : Nat) : Int) + (floatExp lo x - p) = floatExp lo x + 1 := by
      push_cast; ring
    rw [e]
    exact (lt_two_floatExp lo x).le
  have := roundHalfEven_mono h1
  rwa [roundHalfEven_int] at this

theorem roundPos_le (p : Nat) (lo : Option Int) (x : K) :
    roundPos p lo x ≤ 2 ^ (floatExp lo x + 1) := by
  unfold roundPos
  have h : (roundHalfEven (x / 2 ^ (floatExp lo x - p)) : K) ≤ ((2 ^ (p + 1) : Int) : K) := by
    exact_mod_cast roundPos_digits p lo x
  refine le_trans (mul_le_mul_of_nonneg_right h (two_zpow_pos _).le) ?_
  rw [int_two_pow, ← zpow_add₀ (by norm_num)]
  apply le_of_eq; congr 1; push_cast; ring

theorem le_roundPos (p : Nat) (lo : Option Int) {x : K} (h : (2 : K) ^ floatExp lo x ≤ x) :
    2 ^ floatExp lo x ≤ roundPos p lo x := by
  unfold roundPos
  have h1 : ((2 ^ p : Int) : K) ≤ x / 2 ^ (floatExp lo x - p) := by
    rw [le_div_iff₀ (two_zpow_pos _), int_two_pow, ← zpow_split]
    exact h
  have h2 := roundHalfEven_mono h1
  rw [roundHalfEven_int] at h2
  have h3 : ((2 ^ p : Int) : K) ≤ (roundHalfEven (x / 2 ^ (floatExp lo x - p)) : K) := by
    exact_mod_cast h2
  rw [zpow_split p (floatExp lo x)]
  refine mul_le_mul_of_nonneg_right ?_ (two_zpow_pos _).le
  rwa [int_two_pow] at h3

theorem roundPos_mono (p : Nat) (lo : Option Int) {x y : K} (hx : 0 ≤ x) (h : x ≤ y) :
    roundPos p lo x ≤ roundPos p lo y := by
  rcases hx.eq_or_lt with rfl | hx
  · refine le_trans (le_of_eq ?_) (roundPos_nonneg p lo h)
    unfold roundPos
    rw [zero_div]
    have : roundHalfEven (0 : K) = 0 := by
      have := roundHalfEven_int (K := K) 0
      rwa [Int.cast_zero] at this
    rw [this]; simp
  · rcases (floatExp_mono lo hx h).eq_or_lt with he | he
    · unfold roundPos
      rw [he]
      refine mul_le_mul_of_nonneg_right ?_ (two_zpow_pos _).le
      exact_mod_cast roundHalfEven_mono (div_le_div_of_nonneg_right h (two_zpow_pos _).le)
    · have e := floatExp_eq_log lo he
      refine le_trans (roundPos_le p lo x) (le_trans ?_ (le_roundPos p lo ?_))
      · exact zpow_le_zpow_right₀ (by norm_num) (by omega)
      · rw [e]; exact two_log_le (lt_of_lt_of_le hx h)

/-- Numbers with few digits are not changed. -/
theorem roundPos_exact (p : Nat) (lo : Option Int) (m : Int) (k : Int) (hm0 : 0 < m)
    (hm : m ≤ 2 ^ (p + 1)) (hk : ∀ l, lo = some l → l ≤ k + p) :
    roundPos p lo ((m : K) * 2 ^ k) = (m : K) * 2 ^ k := by
  obtain ⟨z, hz⟩ : ∃ z, z = (m : K) * 2 ^ k := ⟨_, rfl⟩
  rw [← hz]
  have hz0 : 0 < z := by rw [hz]; exact mul_pos (by exact_mod_cast hm0) (two_zpow_pos _)
  suffices h : ∃ n : Int, z / 2 ^ (floatExp lo z - p) = n by
    obtain ⟨n, hn⟩ := h
    unfold roundPos
    rw [hn, roundHalfEven_int, ← hn, div_mul_cancel₀ _ (two_zpow_pos _).ne']
  have hzle : z ≤ 2 ^ ((p : Int) + 1 + k) := by
    rw [hz, zpow_add₀ (by norm_num)]
    refine mul_le_mul_of_nonneg_right ?_ (two_zpow_pos _).le
    have : (m : K) ≤ ((2 ^ (p + 1) : Int) : K) := by exact_mod_cast hm
    rw [int_two_pow] at this
    simpa using this
  have hlog : Int.log 2 z ≤ (p : Int) + 1 + k := by
    have := two_log_le hz0
    have h2 := le_trans this hzle
    exact (zpow_le_zpow_iff_right₀ (by norm_num)).1 h2
  by_cases hc : floatExp lo z - p ≤ k
  · obtain ⟨d, hd⟩ := Int.le.dest hc
    refine ⟨m * 2 ^ d, ?_⟩
    rw [div_eq_iff (two_zpow_pos _).ne']
    obtain ⟨E, hE⟩ : ∃ E, E = floatExp lo z - p := ⟨_, rfl⟩
    rw [← hE] at hd ⊢
    rw [hz, ← hd]
    push_cast
    rw [zpow_add₀ (by norm_num), zpow_natCast]
    ring
  · push Not at hc
    have hE : floatExp lo z = Int.log 2 z := by
      unfold floatExp at hc ⊢
      cases lo with
      | none => rfl
      | some l =>
        simp only [] at hc ⊢
        have := hk l rfl
        rcases max_choice l (Int.log 2 z) with h1 | h1
        · rw [h1] at hc; omega
        · exact h1
    have hl : Int.log 2 z = (p : Int) + 1 + k := by
      rw [hE] at hc; omega
    refine ⟨2 ^ p, ?_⟩
    have hze : z = 2 ^ ((p : Int) + 1 + k) := by
      apply le_antisymm hzle
      have := two_log_le hz0
      rwa [hl] at this
    rw [hE, hl, hze, div_eq_iff (two_zpow_pos _).ne', int_two_pow, ← zpow_add₀ (by norm_num)]
    congr 1; ring

theorem roundPos_idem (p : Nat) (lo : Option Int) {x : K} (hx : 0 ≤ x) :
    roundPos p lo (roundPos p lo x) = roundPos p lo x := by
  have hn := roundPos_nonneg p lo hx
  rcases hn.eq_or_lt with h0 | h0
  · rw [← h0]
    unfold roundPos
    rw [zero_div]
    have : roundHalfEven (0 : K) = 0 := by
      have := roundHalfEven_int (K := K) 0
      rwa [Int.cast_zero] at this
    rw [this]; simp
  · conv_lhs => rw [show roundPos p lo x = (roundHalfEven (x / 2 ^ (floatExp lo x - p)) : K) *
      2 ^ (floatExp lo x - p) from rfl]
    rw [roundPos_exact]
    · rfl
    · have : 0 < (roundHalfEven (x / 2 ^ (floatExp lo x - p)) : K) := by
        unfold roundPos at h0
        exact (pos_iff_pos_of_mul_pos h0).2 (two_zpow_pos _)
      exact_mod_cast this
    · exact roundPos_digits p lo x
    · intro l hl
      subst hl
      unfold floatExp
      have := le_max_left l (Int.log 2 x)
      simp only []
      omega

theorem roundFloat_rounding (p : Nat) (lo : Option Int) :
    Rounding (roundFloat p lo : K → K) := by
  have hz : roundPos p lo (0 : K) = 0 := by
    unfold roundPos
    rw [zero_div]
    have : roundHalfEven (0 : K) = 0 := by
      have := roundHalfEven_int (K := K) 0
      rwa [Int.cast_zero] at this
    rw [this]; simp
  refine ⟨?_, ?_, ?_⟩
  · intro x y h
    unfold roundFloat
    by_cases hx : 0 ≤ x
    · rw [if_pos hx, if_pos (le_trans hx h)]
      exact roundPos_mono p lo hx h
    · rw [if_neg hx]
      push Not at hx
      by_cases hy : 0 ≤ y
      · rw [if_pos hy]
        have h1 := roundPos_nonneg p lo hy
        have h2 := roundPos_nonneg p lo (x := -x) (by linarith)
        linarith
      · rw [if_neg hy]
        push Not at hy
        have := roundPos_mono p lo (x := -y) (y := -x) (by linarith) (by linarith)
        linarith
  · unfold roundFloat
    rw [if_pos (le_refl _), hz]
  · intro x
    by_cases hx : 0 ≤ x
    · have e : roundFloat p lo x = roundPos p lo x := by unfold roundFloat; rw [if_pos hx]
      rw [e]
      unfold roundFloat
      rw [if_pos (roundPos_nonneg p lo hx), roundPos_idem p lo hx]
    · push Not at hx
      have e : roundFloat p lo x = -roundPos p lo (-x) := by
        unfold roundFloat; rw [if_neg (not_le.2 hx)]
      rw [e]
      have hn := roundPos_nonneg p lo (x := -x) (by linarith)
      unfold roundFloat
      by_cases h0 : 0 ≤ -roundPos p lo (-x)
      · have : roundPos p lo (-x) = 0 := by linarith
        rw [if_pos h0, this, neg_zero, hz]
      · rw [if_neg h0, neg_neg, roundPos_idem p lo (by linarith)]

theorem roundPos_near (p : Nat) {x : K} (hx : 0 < x) :
    |roundPos p none x - x| ≤ 1 / 2 ^ (p + 1) * x := by
  have hk := two_zpow_pos (K := K) (floatExp none x - p)
  obtain ⟨y, hy⟩ : ∃ y, y = x / 2 ^ (floatExp none x - p) := ⟨_, rfl⟩
  have hxy : x = y * 2 ^ (floatExp none x - p) := by rw [hy, div_mul_cancel₀ _ hk.ne']
  have h1 : |(roundHalfEven y : K) - y| ≤ 1 / 2 := by
    have h1 := Int.floor_le y
    have h2 := Int.lt_floor_add_one y
    unfold roundHalfEven
    simp only []
    rw [abs_le]
    split
    · constructor <;> linarith
    · split
      · push_cast; constructor <;> linarith
      · split
        · constructor <;> linarith
        · push_cast; constructor <;> linarith
  have h2 : roundPos p none x - x = ((roundHalfEven y : K) - y) * 2 ^ (floatExp none x - p) := by
    unfold roundPos
    rw [sub_mul, ← hy, ← hxy]
  rw [h2, abs_mul, abs_of_pos hk]
  refine le_trans (mul_le_mul_of_nonneg_right h1 hk.le) ?_
  have h3 : (2 : K) ^ floatExp none x ≤ x := two_log_le hx
  rw [zpow_split p] at h3
  have h4 : (0 : K) < 2 ^ (p : Int) := two_zpow_pos _
  have e : (1 : K) / 2 ^ (p + 1) = 1 / 2 / 2 ^ (p : Int) := by
    rw [zpow_natCast, pow_succ, div_div, mul_comm]
  rw [e, div_mul_eq_mul_div (1 / 2 : K), le_div_iff₀ h4]
  linarith

theorem roundFloat_relErr (p : Nat) : RelErr (roundFloat p none : K → K) (1 / 2 ^ (p + 1)) := by
  intro x
  rcases lt_trichotomy x 0 with hx | hx | hx
  · have := roundPos_near (K := K) p (x := -x) (by linarith)
    unfold roundFloat
    rw [if_neg (not_le.2 hx), abs_of_neg hx]
    have e : -roundPos p none (-x) - x = -(roundPos p none (-x) - -x) := by ring
    rw [e, abs_neg]
    exact this
  · subst hx
    rw [(roundFloat_rounding p none).zero]
    simp
  · have := roundPos_near (K := K) p hx
    unfold roundFloat
    rw [if_pos hx.le, abs_of_pos hx]
    exact this

/-- Integers with few digits are numbers. -/
theorem roundFloat_nat (p : Nat) (n : Nat) (hn : n ≤ 2 ^ (p + 1)) :
    roundFloat p none (n : K) = n := by
  rcases Nat.eq_zero_or_pos n with rfl | h0
  · rw [Nat.cast_zero]; exact (roundFloat_rounding p none).zero
  · unfold roundFloat
    rw [if_pos (Nat.cast_nonneg n)]
    have := roundPos_exact (K := K) p none (n : Int) 0 (by exact_mod_cast h0)
      (by exact_mod_cast hn) (by intro l hl; cases hl)
    simpa using this

end MoonPIES
