import Verif.Model.Ejecta
import Mathlib.Tactic.Linarith
import Mathlib.Tactic.NormNum
import Mathlib.Tactic.Positivity
import Mathlib.Tactic.FieldSimp

/-!
# C38: transient and final crater diameters
-/

namespace MoonPIES

theorem pow_root (x : ℝ) (hx : 0 ≤ x) (e : ℝ) (he : 0 < e) : (x ^ e) ^ (1 / e) = x := by
  rw [← Real.rpow_mul hx, mul_one_div_cancel he.ne', Real.rpow_one]

theorem melosh_complex_pos (d : ℝ) (h : 0 < d) : 0 < f2tMelosh d false := by
  unfold f2tMelosh
  simp only [Bool.false_eq_true, if_false]
  positivity

theorem melosh_complex_mono (a b : ℝ) (ha : 0 < a) (h : a < b) :
    f2tMelosh a false < f2tMelosh b false := by
  unfold f2tMelosh
  simp only [Bool.false_eq_true, if_false]
  apply mul_lt_mul_of_pos_left _ (by norm_num)
  apply Real.rpow_lt_rpow (by positivity) _ (by norm_num)
  exact mul_lt_mul_of_pos_right h (by positivity)

theorem croft_mono (a b : ℝ) (ha : 0 < a) (h : a < b) : f2tCroft a < f2tCroft b := by
  unfold f2tCroft
  simp only []
  apply Real.rpow_lt_rpow (by positivity) _ (by norm_num)
  exact mul_lt_mul_of_pos_right h (by positivity)

/-- The complex law never gives more than the simple one from 18 km on, nor less below. -/
theorem melosh_complex_le (d : ℝ) (h : 18000 ≤ d) : f2tMelosh d false ≤ d / 1.25 := by
  have hd : 0 < d := by linarith
  unfold f2tMelosh
  simp only [Bool.false_eq_true, if_false]
  have h1 : (18e3 : ℝ) ^ (0.13 : ℝ) ≤ d ^ (0.13 : ℝ) :=
    Real.rpow_le_rpow (by norm_num) (by norm_num; linarith) (by norm_num)
  have h2 : d * (18e3 : ℝ) ^ (0.13 : ℝ) ≤ d ^ (1 + 0.13 : ℝ) := by
    rw [Real.rpow_add hd, Real.rpow_one]
    exact mul_le_mul_of_nonneg_left h1 hd.le
  have h3 : (d * (18e3 : ℝ) ^ (0.13 : ℝ)) ^ (1 / (1 + 0.13) : ℝ) ≤ d := by
    calc _ ≤ (d ^ (1 + 0.13 : ℝ)) ^ (1 / (1 + 0.13) : ℝ) :=
          Real.rpow_le_rpow (by positivity) h2 (by norm_num)
      _ = d := pow_root d hd.le _ (by norm_num)
  have h4 : (0 : ℝ) ≤ 1 / 1.25 := by norm_num
  calc _ ≤ 1 / 1.25 * d := mul_le_mul_of_nonneg_left h3 h4
    _ = d / 1.25 := by ring

theorem melosh_complex_ge (d : ℝ) (h0 : 0 < d) (h : d ≤ 18000) : d / 1.25 ≤ f2tMelosh d false := by
  unfold f2tMelosh
  simp only [Bool.false_eq_true, if_false]
  have h1 : d ^ (0.13 : ℝ) ≤ (18e3 : ℝ) ^ (0.13 : ℝ) :=
    Real.rpow_le_rpow h0.le (by norm_num; linarith) (by norm_num)
  have h2 : d ^ (1 + 0.13 : ℝ) ≤ d * (18e3 : ℝ) ^ (0.13 : ℝ) := by
    rw [Real.rpow_add h0, Real.rpow_one]
    exact mul_le_mul_of_nonneg_left h1 h0.le
  have h3 : d ≤ (d * (18e3 : ℝ) ^ (0.13 : ℝ)) ^ (1 / (1 + 0.13) : ℝ) := by
    calc d = (d ^ (1 + 0.13 : ℝ)) ^ (1 / (1 + 0.13) : ℝ) := (pow_root d h0.le _ (by norm_num)).symm
      _ ≤ _ := Real.rpow_le_rpow (by positivity) h2 (by norm_num)
  have h4 : (0 : ℝ) ≤ 1 / 1.25 := by norm_num
  calc d / 1.25 = 1 / 1.25 * d := by ring
    _ ≤ _ := mul_le_mul_of_nonneg_left h3 h4

theorem melosh_complex_lt (d : ℝ) (h : 18000 < d) : f2tMelosh d false < d / 1.25 := by
  refine lt_of_le_of_ne (melosh_complex_le d h.le) ?_
  intro he
  -- scaling down to the transition gives equality there, strict growth of `d` breaks it
  have hd : 0 < d := by linarith
  unfold f2tMelosh at he
  simp only [Bool.false_eq_true, if_false] at he
  have h1 : (18e3 : ℝ) ^ (0.13 : ℝ) < d ^ (0.13 : ℝ) :=
    Real.rpow_lt_rpow (by norm_num) (by norm_num; linarith) (by norm_num)
  have h2 : d * (18e3 : ℝ) ^ (0.13 : ℝ) < d ^ (1 + 0.13 : ℝ) := by
    rw [Real.rpow_add hd, Real.rpow_one]
    exact mul_lt_mul_of_pos_left h1 hd
  have h3 : (d * (18e3 : ℝ) ^ (0.13 : ℝ)) ^ (1 / (1 + 0.13) : ℝ) < d := by
    calc _ < (d ^ (1 + 0.13 : ℝ)) ^ (1 / (1 + 0.13) : ℝ) :=
          Real.rpow_lt_rpow (by positivity) h2 (by norm_num)
      _ = d := pow_root d hd.le _ (by norm_num)
  have h4 : (0 : ℝ) < 1 / 1.25 := by norm_num
  have h5 := mul_lt_mul_of_pos_left h3 h4
  have h6 : (1 / 1.25 : ℝ) * d = d / 1.25 := by ring
  linarith

theorem croft_lt (d : ℝ) (h : 18700 < d) : f2tCroft d < d := by
  have hd : 0 < d := by linarith
  unfold f2tCroft
  simp only []
  have h1 : (18.7e3 : ℝ) ^ (0.18 : ℝ) < d ^ (0.18 : ℝ) :=
    Real.rpow_lt_rpow (by norm_num) (by norm_num; linarith) (by norm_num)
  have h2 : d * (18.7e3 : ℝ) ^ (0.18 : ℝ) < d ^ (1 + 0.18 : ℝ) := by
    rw [Real.rpow_add hd, Real.rpow_one]
    exact mul_lt_mul_of_pos_left h1 hd
  calc _ < (d ^ (1 + 0.18 : ℝ)) ^ (1 / (1 + 0.18) : ℝ) :=
        Real.rpow_lt_rpow (by positivity) h2 (by norm_num)
    _ = d := pow_root d hd.le _ (by norm_num)

theorem croft_pos (d : ℝ) (h : 0 < d) : 0 < f2tCroft d := by
  unfold f2tCroft
  simp only []
  positivity

/-- A rational root of a product with a rational power. -/
theorem root_le (d b e m : ℝ) (hd : 0 ≤ d) (hb : 0 ≤ b) (hm : 0 ≤ m) (he : 0 < 1 + e)
    (p q : ℕ) (hp : e * 100 = p) (hq : (1 + e) * 100 = q) (h : d ^ 100 * b ^ p ≤ m ^ q) :
    (d * b ^ e) ^ (1 / (1 + e)) ≤ m := by
  have h1 : d * b ^ e ≤ m ^ (1 + e) := by
    apply le_of_pow_le_pow_left₀ (n := 100) (by norm_num) (by positivity)
    rw [mul_pow, ← Real.rpow_mul_natCast hb, ← Real.rpow_mul_natCast hm]
    have e1 : e * ((100 : ℕ) : ℝ) = p := by rw [← hp]; norm_num
    have e2 : (1 + e) * ((100 : ℕ) : ℝ) = q := by rw [← hq]; norm_num
    rw [e1, e2, Real.rpow_natCast, Real.rpow_natCast]
    exact h
  calc _ ≤ (m ^ (1 + e)) ^ (1 / (1 + e)) := Real.rpow_le_rpow (by positivity) h1 (by positivity)
    _ = m := pow_root m hm _ he

theorem le_root (d b e m : ℝ) (hd : 0 ≤ d) (hb : 0 ≤ b) (hm : 0 ≤ m) (he : 0 < 1 + e)
    (p q : ℕ) (hp : e * 100 = p) (hq : (1 + e) * 100 = q) (h : m ^ q ≤ d ^ 100 * b ^ p) :
    m ≤ (d * b ^ e) ^ (1 / (1 + e)) := by
  have h1 : m ^ (1 + e) ≤ d * b ^ e := by
    apply le_of_pow_le_pow_left₀ (n := 100) (by norm_num) (by positivity)
    rw [mul_pow, ← Real.rpow_mul_natCast hb, ← Real.rpow_mul_natCast hm]
    have e1 : e * ((100 : ℕ) : ℝ) = p := by rw [← hp]; norm_num
    have e2 : (1 + e) * ((100 : ℕ) : ℝ) = q := by rw [← hq]; norm_num
    rw [e1, e2, Real.rpow_natCast, Real.rpow_natCast]
    exact h
  calc m = (m ^ (1 + e)) ^ (1 / (1 + e)) := (pow_root m hm _ he).symm
    _ ≤ _ := Real.rpow_le_rpow (by positivity) h1 (by positivity)

theorem melosh_at_140 : f2tMelosh 1.4e5 false ≤ 95000 := by
  have h := root_le 140000 18000 0.13 118750 (by norm_num) (by norm_num) (by norm_num) (by norm_num)
    13 113 (by norm_num) (by norm_num) (by norm_num)
  unfold f2tMelosh
  simp only [Bool.false_eq_true, if_false]
  have e1 : (1.4e5 : ℝ) = 140000 := by norm_num
  have e2 : (18e3 : ℝ) = 18000 := by norm_num
  have e3 : (1 / 1.25 : ℝ) = 4 / 5 := by norm_num
  rw [e1, e2, e3]
  linarith

theorem croft_at_140 : 95000 ≤ f2tCroft 1.4e5 := by
  have h := le_root 140000 18700 0.18 95000 (by norm_num) (by norm_num) (by norm_num) (by norm_num)
    18 118 (by norm_num) (by norm_num) (by norm_num)
  unfold f2tCroft
  simp only []
  have e1 : (1.4e5 : ℝ) = 140000 := by norm_num
  have e2 : (18.7e3 : ℝ) = 18700 := by norm_num
  rw [e1, e2]
  exact h

theorem f2t_simple (ds2c dc2pr d : ℝ) (hc : ds2c ≤ dc2pr) (h : d ≤ ds2c) :
    final2transient ds2c dc2pr d = d / 1.25 := by
  unfold final2transient f2tMelosh
  simp only []
  rw [if_neg (not_lt.2 (h.trans hc)), if_neg (fun hh => absurd hh.1 (not_lt.2 h)), if_pos h]
  simp

theorem f2t_complex (ds2c dc2pr d : ℝ) (h1 : ds2c < d) (h2 : d ≤ dc2pr) :
    final2transient ds2c dc2pr d = f2tMelosh d false := by
  unfold final2transient
  simp only []
  rw [if_neg (not_lt.2 h2), if_pos ⟨h1, h2⟩]

theorem f2t_basin (ds2c dc2pr d : ℝ) (h : dc2pr < d) : final2transient ds2c dc2pr d = f2tCroft d := by
  unfold final2transient
  simp only []
  rw [if_pos h]

/-- **C38** for every choice of transition diameters the transient diameter is positive. -/
theorem C38_transient_positive (ds2c dc2pr d : ℝ) (hd : 0 < d) : 0 < final2transient ds2c dc2pr d := by
  rcases lt_or_ge dc2pr d with h | h
  · rw [f2t_basin _ _ _ h]; exact croft_pos d hd
  rcases lt_or_ge ds2c d with h' | h'
  · rw [f2t_complex _ _ _ h' h]; exact melosh_complex_pos d hd
  · unfold final2transient f2tMelosh
    simp only []
    rw [if_neg (not_lt.2 h), if_neg (fun hh => absurd hh.1 (not_lt.2 h')), if_pos h', if_pos trivial]
    positivity

/-- **C38** below the final diameter, for transitions at or above the values built into
the scaling laws (18 and 18.7 km). -/
theorem C38_transient_lt_final (ds2c dc2pr d : ℝ) (hd : 0 < d) (h1 : 18000 ≤ ds2c)
    (h2 : 18700 ≤ dc2pr) (h3 : ds2c ≤ dc2pr) : final2transient ds2c dc2pr d < d := by
  have h4 : d / 1.25 < d := by
    rw [div_lt_iff₀ (by norm_num)]; norm_num; linarith
  rcases lt_or_ge dc2pr d with h | h
  · rw [f2t_basin _ _ _ h]; exact croft_lt d (by linarith)
  rcases lt_or_ge ds2c d with h' | h'
  · rw [f2t_complex _ _ _ h' h]
    exact (melosh_complex_le d (by linarith)).trans_lt h4
  · rw [f2t_simple _ _ _ h3 h']
    exact h4

/-- Spec: final diameter of a complex crater of transient diameter `t` (Melosh 1989): the rim of the
transient crater, `1.25 t`, is enlarged by the `0.13`th power of its ratio to 18 km. -/
noncomputable def meloshFinal (t : ℝ) : ℝ := 1.25 * t * (1.25 * t / 18000) ^ (0.13 : ℝ)

/-- Spec: final diameter of a basin of transient diameter `t` (Croft 1985). -/
noncomputable def croftFinal (t : ℝ) : ℝ := t * (t / 18700) ^ (0.18 : ℝ)

theorem croftFinal_eq (d : ℝ) (hd : 0 < d) : croftFinal (f2tCroft d) = d := by
  obtain ⟨t, ht⟩ : ∃ t, t = f2tCroft d := ⟨_, rfl⟩
  have ht0 : 0 < t := ht ▸ croft_pos d hd
  have h1 : t ^ (1 + 0.18 : ℝ) = d * (18.7e3 : ℝ) ^ (0.18 : ℝ) := by
    rw [ht]
    unfold f2tCroft
    simp only []
    rw [← Real.rpow_mul (by positivity)]
    norm_num
  rw [← ht]
  unfold croftFinal
  rw [Real.div_rpow ht0.le (by norm_num)]
  have h2 : t * t ^ (0.18 : ℝ) = d * (18.7e3 : ℝ) ^ (0.18 : ℝ) := by
    rw [← h1, Real.rpow_add ht0, Real.rpow_one]
  have e : (18.7e3 : ℝ) = 18700 := by norm_num
  rw [e] at h2
  rw [← mul_div_assoc, h2]
  have : (0 : ℝ) < 18700 ^ (0.18 : ℝ) := by positivity
  field_simp

theorem meloshFinal_eq (d : ℝ) (hd : 0 < d) : meloshFinal (f2tMelosh d false) = d := by
  obtain ⟨t, ht⟩ : ∃ t, t = 1.25 * f2tMelosh d false := ⟨_, rfl⟩
  have ht0 : 0 < t := ht ▸ mul_pos (by norm_num) (melosh_complex_pos d hd)
  have h1 : t ^ (1 + 0.13 : ℝ) = d * (18e3 : ℝ) ^ (0.13 : ℝ) := by
    have h0 : t = (d * (18e3 : ℝ) ^ (0.13 : ℝ)) ^ (1 / (1 + 0.13) : ℝ) := by
      rw [ht]
      unfold f2tMelosh
      simp only [Bool.false_eq_true, if_false]
      rw [← mul_assoc]
      norm_num
    rw [h0, ← Real.rpow_mul (by positivity)]
    norm_num
  unfold meloshFinal
  rw [← ht, Real.div_rpow ht0.le (by norm_num)]
  have h2 : t * t ^ (0.13 : ℝ) = d * (18e3 : ℝ) ^ (0.13 : ℝ) := by
    rw [← h1, Real.rpow_add ht0, Real.rpow_one]
  have e : (18e3 : ℝ) = 18000 := by norm_num
  rw [e] at h2
  rw [← mul_div_assoc, h2]
  have : (0 : ℝ) < 18000 ^ (0.13 : ℝ) := by positivity
  field_simp

/-- **C38** the transient diameter is the one whose final diameter, by the law of the size class, is
the given diameter: 1.25 times the transient diameter for simple craters, the law of Melosh for
complex craters, the law of Croft for basins. -/
theorem C38_inverts_collapse (ds2c dc2pr d : ℝ) (hd : 0 < d) (hc : ds2c ≤ dc2pr) :
    (d ≤ ds2c → 1.25 * final2transient ds2c dc2pr d = d) ∧
    (ds2c < d → d ≤ dc2pr → meloshFinal (final2transient ds2c dc2pr d) = d) ∧
    (dc2pr < d → croftFinal (final2transient ds2c dc2pr d) = d) := by
  refine ⟨fun h => ?_, fun h1 h2 => ?_, fun h => ?_⟩
  · rw [f2t_simple _ _ _ hc h]; ring
  · rw [f2t_complex _ _ _ h1 h2]; exact meloshFinal_eq d hd
  · rw [f2t_basin _ _ _ h]; exact croftFinal_eq d hd

theorem meloshFinal_lt (t t' : ℝ) (ht : 0 < t) (h : t < t') : meloshFinal t < meloshFinal t' := by
  unfold meloshFinal
  apply mul_lt_mul (by linarith) _ (by positivity) (by linarith)
  exact Real.rpow_le_rpow (by positivity) (by linarith) (by norm_num)

theorem croftFinal_lt (t t' : ℝ) (ht : 0 < t) (h : t < t') : croftFinal t < croftFinal t' := by
  unfold croftFinal
  apply mul_lt_mul h _ (by positivity) (by linarith)
  exact Real.rpow_le_rpow (by positivity) (by linarith) (by norm_num)

theorem f2t_strictMono (ds2c dc2pr : ℝ) (h0 : 0 < ds2c) (h1 : ds2c ≤ 18000)
    (h3 : ds2c ≤ dc2pr) (h4 : f2tMelosh dc2pr false ≤ f2tCroft dc2pr) (a b : ℝ) (ha : 0 < a)
    (hab : a < b) : final2transient ds2c dc2pr a < final2transient ds2c dc2pr b := by
  have hb : 0 < b := ha.trans hab
  have hsc : ds2c / 1.25 ≤ f2tMelosh ds2c false := melosh_complex_ge ds2c h0 h1
  have hcp : f2tMelosh ds2c false ≤ f2tMelosh dc2pr false := by
    rcases h3.lt_or_eq with h | h
    · exact (melosh_complex_mono _ _ h0 h).le
    · rw [h]
  have hmono : ∀ x, x ≤ ds2c → x / 1.25 ≤ ds2c / 1.25 := fun x hx =>
    div_le_div_of_nonneg_right hx (by norm_num)
  rcases lt_or_ge dc2pr a with h | h
  · rw [f2t_basin _ _ _ h, f2t_basin _ _ _ (h.trans hab)]
    exact croft_mono a b ha hab
  rcases lt_or_ge ds2c a with h' | h'
  · rw [f2t_complex _ _ _ h' h]
    rcases lt_or_ge dc2pr b with g | g
    · rw [f2t_basin _ _ _ g]
      have : f2tMelosh a false ≤ f2tMelosh dc2pr false := by
        rcases h.lt_or_eq with h | h
        · exact (melosh_complex_mono _ _ ha h).le
        · rw [h]
      exact (this.trans h4).trans_lt (croft_mono _ _ (ha.trans_le h) g)
    · rw [f2t_complex _ _ _ (h'.trans hab) g]
      exact melosh_complex_mono a b ha hab
  · rw [f2t_simple _ _ _ h3 h']
    rcases lt_or_ge dc2pr b with g | g
    · rw [f2t_basin _ _ _ g]
      exact ((((hmono a h').trans hsc).trans hcp).trans h4).trans_lt
        (croft_mono _ _ (h0.trans_le h3) g)
    rcases lt_or_ge ds2c b with g' | g'
    · rw [f2t_complex _ _ _ g' g]
      exact ((hmono a h').trans hsc).trans_lt (melosh_complex_mono _ _ h0 g')
    · rw [f2t_simple _ _ _ h3 g']
      exact div_lt_div_of_pos_right hab (by norm_num)

/-- **C38** strictly increasing across the regimes when the simple-to-complex transition is at most
the 18 km built into the law and, at the transition to basins, the basin law gives a transient
crater that is not smaller than by the complex law. -/
theorem C38_transient_strictMono_general (ds2c dc2pr t t' : ℝ) (h0 : 0 < ds2c) (h1 : ds2c ≤ 18000)
    (h3 : ds2c ≤ dc2pr) (ht : 0 < t) (htt : t ≤ t') (hm : meloshFinal t = dc2pr)
    (hc : croftFinal t' = dc2pr) (a b : ℝ) (ha : 0 < a) (hab : a < b) :
    final2transient ds2c dc2pr a < final2transient ds2c dc2pr b := by
  have hp : 0 < dc2pr := h0.trans_le h3
  refine f2t_strictMono ds2c dc2pr h0 h1 h3 ?_ a b ha hab
  have e1 : f2tMelosh dc2pr false ≤ t := by
    by_contra hlt
    have := meloshFinal_lt t _ ht (not_le.1 hlt)
    rw [hm, meloshFinal_eq dc2pr hp] at this
    exact lt_irrefl _ this
  have e2 : t' ≤ f2tCroft dc2pr := by
    by_contra hlt
    have := croftFinal_lt _ t' (croft_pos dc2pr hp) (not_le.1 hlt)
    rw [hc, croftFinal_eq dc2pr hp] at this
    exact lt_irrefl _ this
  linarith

/-- **C38** with the default transitions: positive, below the final diameter, strictly
increasing over all diameters. -/
theorem C38_transient_default (a : ℝ) (ha : 0 < a) :
    0 < final2transient 18e3 1.4e5 a ∧ final2transient 18e3 1.4e5 a < a ∧
    ∀ b, a < b → final2transient 18e3 1.4e5 a < final2transient 18e3 1.4e5 b :=
  ⟨C38_transient_positive _ _ a ha,
   C38_transient_lt_final _ _ a ha (by norm_num) (by norm_num) (by norm_num),
   fun b hab => f2t_strictMono _ _ (by norm_num) (by norm_num) (by norm_num)
     (melosh_at_140.trans croft_at_140) a b ha hab⟩

/-- **C38** a configured transition above 18 km breaks monotonicity: the 18 km of the
scaling law is hard-coded, so diameters just above the transition get a smaller
transient crater than the transition itself. -/
theorem C38_hardcoded_transition (ds2c dc2pr : ℝ) (h1 : 18000 < ds2c) (h2 : ds2c < dc2pr) :
    ∃ a b, 0 < a ∧ a < b ∧ final2transient ds2c dc2pr b < final2transient ds2c dc2pr a := by
  have hd : 0 < ds2c := by linarith
  have hlt : f2tMelosh ds2c false < ds2c / 1.25 := melosh_complex_lt ds2c h1
  -- pick the scale factor between the two values, capped to stay in the complex regime
  have hpos := melosh_complex_pos ds2c hd
  obtain ⟨k, hk1, hk2⟩ : ∃ k, 1 < k ∧ k * f2tMelosh ds2c false < ds2c / 1.25 := by
    refine ⟨(1 + ds2c / 1.25 / f2tMelosh ds2c false) / 2, ?_, ?_⟩
    · have : 1 < ds2c / 1.25 / f2tMelosh ds2c false := (one_lt_div hpos).2 hlt
      linarith
    · have e : (1 + ds2c / 1.25 / f2tMelosh ds2c false) / 2 * f2tMelosh ds2c false =
          (f2tMelosh ds2c false + ds2c / 1.25) / 2 := by field_simp
      rw [e]; linarith
  refine ⟨ds2c, min dc2pr (k * ds2c), hd, lt_min h2 (by nlinarith), ?_⟩
  rw [f2t_simple _ _ _ h2.le (le_refl _), f2t_complex _ _ _ (lt_min h2 (by nlinarith)) (min_le_left _ _)]
  refine lt_of_le_of_lt ?_ hk2
  have hmin : 0 < min dc2pr (k * ds2c) := lt_min (hd.trans h2) (by positivity)
  have hle : min dc2pr (k * ds2c) ≤ k * ds2c := min_le_right _ _
  unfold f2tMelosh
  simp only [Bool.false_eq_true, if_false]
  have hk0 : 0 < k := by linarith
  have h5 : (min dc2pr (k * ds2c) * (18e3 : ℝ) ^ (0.13 : ℝ)) ^ (1 / (1 + 0.13) : ℝ) ≤
      k * (ds2c * (18e3 : ℝ) ^ (0.13 : ℝ)) ^ (1 / (1 + 0.13) : ℝ) := by
    calc _ ≤ (k * (ds2c * (18e3 : ℝ) ^ (0.13 : ℝ))) ^ (1 / (1 + 0.13) : ℝ) := by
          apply Real.rpow_le_rpow (by positivity) _ (by norm_num)
          rw [← mul_assoc]
          exact mul_le_mul_of_nonneg_right hle (by positivity)
      _ = k ^ (1 / (1 + 0.13) : ℝ) * (ds2c * (18e3 : ℝ) ^ (0.13 : ℝ)) ^ (1 / (1 + 0.13) : ℝ) :=
          Real.mul_rpow hk0.le (by positivity)
      _ ≤ _ := by
          apply mul_le_mul_of_nonneg_right _ (by positivity)
          calc k ^ (1 / (1 + 0.13) : ℝ) ≤ k ^ (1 : ℝ) :=
                Real.rpow_le_rpow_of_exponent_le hk1.le (by norm_num)
            _ = k := Real.rpow_one k
  have h6 : (0 : ℝ) ≤ 1 / 1.25 := by norm_num
  have h7 := mul_le_mul_of_nonneg_left h5 h6
  linarith

example : final2transient 18e3 1.4e5 1000 = 800 := by
  rw [f2t_simple _ _ _ (by norm_num) (by norm_num)]; norm_num

end MoonPIES
