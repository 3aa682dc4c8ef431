import Verif.Spec.ScaleFig
import Verif.Lemmas.ScaleFig
import Verif.Props.HopFig
import Mathlib.Analysis.Real.Pi.Bounds

/-!
# C111: the figure of crater scaling, and impactors of neighbouring regimes
-/

namespace MoonPIES

open Real Spec

/-- A power law is a straight line. -/
theorem power_line {x0 x1 x c k y0 y1 y : ℝ} (h0 : 0 < x0) (h01 : x0 < x1) (hx : x0 ≤ x) (hx' : x ≤ x1)
    (hc : 0 < c) (e0 : y0 = c * x0 ^ k) (e1 : y1 = c * x1 ^ k) (e : y = c * x ^ k) :
    OnLogLine (x0 / 1e3, y0) (x1 / 1e3, y1) (x / 1e3, y) := by
  have hxp : 0 < x := h0.trans_le hx
  have h1p : 0 < x1 := h0.trans h01
  have hl : 0 < log x1 - log x0 := sub_pos.2 (log_lt_log h0 h01)
  have hlog : ∀ z : ℝ, 0 < z → log (c * z ^ k) = log c + k * log z := fun z hz => by
    rw [log_mul hc.ne' (rpow_pos_of_pos hz k).ne', log_rpow hz]
  refine ⟨(log x - log x0) / (log x1 - log x0), div_nonneg (sub_nonneg.2 (log_le_log h0 hx)) hl.le,
    (div_le_one hl).2 (sub_le_sub_right (log_le_log hxp hx') _), ?_, ?_⟩
  · simp only []
    rw [log_div hxp.ne' (by norm_num), log_div h0.ne' (by norm_num), log_div h1p.ne' (by norm_num)]
    field_simp
    ring
  · simp only [e0, e1, e]
    rw [hlog x0 h0, hlog x1 h1p, hlog x hxp]
    field_simp
    ring

theorem transient_simple {cfg : ScaleCfg} {d : ℝ} (h : d ≤ cfg.simple2complex)
    (hc : cfg.simple2complex ≤ cfg.complex2peakring) :
    final2transient cfg.simple2complex cfg.complex2peakring d = d / 1.25 := by
  unfold final2transient f2tMelosh
  rw [if_neg (not_lt.2 (h.trans hc)), if_neg (fun h' => absurd h (not_le.2 h'.1)), if_pos h]
  rfl

/-- **C111** the line of large simple craters is the law between its ends. -/
theorem C111_simple_straight (cfg : ScaleCfg) (hi : 0 < cfg.impactor_density) (ht : 0 < cfg.target_density)
    (hg : 0 < cfg.grav_moon) (ha : 0 < cfg.impact_angle) (ha' : cfg.impact_angle < 180) (dmin dmax : ℝ)
    (h0 : 0 < dmin) (h01 : dmin < dmax) (h1 : dmax ≤ cfg.simple2complex)
    (hc : cfg.simple2complex ≤ cfg.complex2peakring) :
    ∃ p q, scaleLine cfg "d" dmin dmax = .ok [p, q] ∧ p.1 = dmin / 1e3 ∧ q.1 = dmax / 1e3 ∧
      ∀ d, dmin ≤ d → d ≤ dmax → ∃ L, diam2lenOne cfg d 20000 "d" = .ok L ∧ OnLogLine p q (d / 1e3, L) := by
  have hs := sin_deg_pos _ ha ha'
  obtain ⟨den, hden⟩ : ∃ den, den = 1.161 * (cfg.impactor_density / cfg.target_density) ^ (1 / 3 : ℝ) *
    (20000 : ℝ) ^ (0.44 : ℝ) * cfg.grav_moon ^ (-0.22 : ℝ) * sin (deg2rad cfg.impact_angle) ^ (1 / 3 : ℝ) :=
    ⟨_, rfl⟩
  have hdp : 0 < den := by rw [hden]; positivity
  have hone : ∀ d, 0 < d → d ≤ dmax → diam2lenOne cfg d 20000 "d" =
      .ok ((1 / (1.25 * den)) ^ (1 / 0.78 : ℝ) * d ^ (1 / 0.78 : ℝ)) := by
    intro d hd hdm
    unfold diam2lenOne
    simp only []
    rw [if_neg (by decide), if_pos trivial, transient_simple (hdm.trans h1) hc]
    unfold diam2lenCollins
    simp only []
    rw [← hden, ← mul_rpow (by positivity) hd.le]
    congr 2
    field_simp
  refine ⟨(dmin / 1e3, (1 / (1.25 * den)) ^ (1 / 0.78 : ℝ) * dmin ^ (1 / 0.78 : ℝ)),
    (dmax / 1e3, (1 / (1.25 * den)) ^ (1 / 0.78 : ℝ) * dmax ^ (1 / 0.78 : ℝ)), ?_, rfl, rfl,
    fun d hd hd' => ⟨_, hone d (h0.trans_le hd) hd', ?_⟩⟩
  · unfold scaleLine diam2len
    rw [if_neg (by decide)]
    simp only [List.mapM_cons, List.mapM_nil, hone dmin h0 h01.le, hone dmax (h0.trans h01) le_rfl, bind,
      Except.bind, pure, Except.pure, List.map_cons, List.map_nil, List.zip_cons_cons, List.zip_nil_left]
  · exact power_line h0 h01 hd hd' (by positivity) rfl rfl rfl

variable (seed : Int)

theorem scale_default : (RunCfg.default seed).scale =
    { impactor_density := 1300, target_density := 1500, grav_moon := 1.62, impact_angle := 45,
      simple2complex := 18e3, complex2peakring := 1.4e5 } := rfl

/-- The length of an impactor in regime `e` with the defaults. -/
theorem complex_one (d : ℝ) : diam2lenOne (RunCfg.default seed).scale d 20000 "e" =
    .ok (diam2lenJohnson (final2transient 18e3 1.4e5 d) 20000 1300 1500 1.62 45 18e3) := by
  unfold diam2lenOne
  rw [scale_default]
  simp only []
  rw [if_neg (by decide), if_neg (by decide), if_pos (by decide)]

theorem simple_one (d : ℝ) (h : d ≤ 18e3) : diam2lenOne (RunCfg.default seed).scale d 20000 "d" =
    .ok (diam2lenCollins (d / 1.25) 20000 1300 1500 1.62 45) := by
  unfold diam2lenOne
  rw [transient_simple (by rw [scale_default]; exact h) (by rw [scale_default]; norm_num), scale_default]
  simp only []
  rw [if_neg (by decide), if_pos trivial]

theorem f2t_default (d : ℝ) (h : d ≤ 18e3) : final2transient 18e3 1.4e5 d = d / 1.25 := by
  have := transient_simple (cfg := (RunCfg.default 0).scale) (d := d) (by rw [scale_default]; exact h)
    (by rw [scale_default]; norm_num)
  rwa [scale_default] at this

theorem f2t_300 : 0 < final2transient 18e3 1.4e5 300e3 ∧ final2transient 18e3 1.4e5 300e3 < 240000 := by
  have e : final2transient 18e3 1.4e5 300e3 = ((300e3 : ℝ) * (18.7e3 : ℝ) ^ (0.18 : ℝ)) ^ (1 / (1 + 0.18) : ℝ) := by
    unfold final2transient f2tCroft
    rw [if_pos (by norm_num)]
  rw [e]
  refine ⟨by positivity, ?_⟩
  apply lt_of_pow_lt_pow_left₀ 59 (by norm_num)
  rw [rpow_pow (by positivity) 59 50 (by norm_num), mul_pow, rpow_pow (by norm_num) 50 9 (by norm_num)]
  norm_num

theorem johnson_log (t : ℝ) (ht : 0 < t) : log (diam2lenJohnson t 20000 1300 1500 1.62 45 18e3) =
    1 / 0.88 * (log t - log (johnsonForward 1 20000 1300 1500 1.62 45 18e3)) := by
  have hp := johnsonForward_pos 1 one_pos
  rw [show (18000 : ℝ) = 18e3 by norm_num] at hp
  rw [← log_div ht.ne' hp.ne', ← log_rpow (div_pos ht hp)]
  unfold diam2lenJohnson johnsonForward
  simp only [deg_eq, one_rpow, mul_one]

/-- **C111** the line of complex craters is not the law between its ends: it is one line over three laws
for the collapse of the crater. -/
theorem C111_complex_refuted : ∃ p q L, scaleLine (RunCfg.default seed).scale "e" 15e3 300e3 = .ok [p, q] ∧
    diam2lenOne (RunCfg.default seed).scale 18e3 20000 "e" = .ok L ∧ ¬ OnLogLine p q (18e3 / 1e3, L) := by
  refine ⟨(15e3 / 1e3, diam2lenJohnson (final2transient 18e3 1.4e5 15e3) 20000 1300 1500 1.62 45 18e3),
    (300e3 / 1e3, diam2lenJohnson (final2transient 18e3 1.4e5 300e3) 20000 1300 1500 1.62 45 18e3),
    _, ?_, complex_one seed 18e3, ?_⟩
  · unfold scaleLine diam2len
    rw [if_neg (by decide)]
    simp only [List.mapM_cons, List.mapM_nil, complex_one, bind, Except.bind, pure, Except.pure,
      List.map_cons, List.map_nil, List.zip_cons_cons, List.zip_nil_left]
  · rintro ⟨s, h0, h1, hx, hy⟩
    obtain ⟨p1, p2⟩ := f2t_300
    simp only [] at hx hy
    rw [f2t_default 18e3 le_rfl, f2t_default 15e3 (by norm_num), johnson_log _ (by norm_num),
      johnson_log _ (by norm_num), johnson_log _ p1] at hy
    generalize final2transient 18e3 1.4e5 300e3 = t at *
    have hx' : log (18e3 / 1e3) - log (15e3 / 1e3) = s * (log (300e3 / 1e3) - log (15e3 / 1e3)) := by
      rw [hx]; ring
    have hy' : log (18e3 / 1.25) - log (15e3 / 1.25) = s * (log t - log (15e3 / 1.25)) := by
      have : (0.88 : ℝ) ≠ 0 := by norm_num
      field_simp at hy
      linarith
    rw [← log_div (by norm_num) (by norm_num), ← log_div (by norm_num) (by norm_num)] at hx'
    rw [← log_div (by norm_num) (by norm_num), ← log_div p1.ne' (by norm_num)] at hy'
    have hs : 0 < s := by
      rcases h0.lt_or_eq with h | h
      · exact h
      · rw [← h, zero_mul] at hx'
        exact absurd hx' (log_pos (by norm_num)).ne'
    have e1 : (18e3 / 1e3 / (15e3 / 1e3) : ℝ) = 18e3 / 1.25 / (15e3 / 1.25) := by norm_num
    rw [e1, hy'] at hx'
    have := mul_left_cancel₀ hs.ne' hx'
    have h3 : log (t / (15e3 / 1.25)) < log (300e3 / 1e3 / (15e3 / 1e3)) := by
      apply log_lt_log (by positivity)
      rw [div_lt_iff₀ (by norm_num)]
      norm_num
      exact p2
    exact absurd this h3.ne

/-- **C111** complex craters of 15 to 18 km have smaller impactors than simple craters of 15 km, as the
law for final diameters gets transient ones: with the final diameter the impactors at 15 km agree to 2%. -/
theorem C111_overlap : ∃ Ld, diam2lenOne (RunCfg.default seed).scale 15e3 20000 "d" = .ok Ld ∧
    (∀ d, 15e3 ≤ d → d ≤ 18e3 → ∃ Le, diam2lenOne (RunCfg.default seed).scale d 20000 "e" = .ok Le ∧
      Le < Ld) ∧
    Ld < diam2lenJohnson 15e3 20000 1300 1500 1.62 45 18e3 ∧
    diam2lenJohnson 15e3 20000 1300 1500 1.62 45 18e3 < 1.02 * Ld := by
  obtain ⟨c1, c2⟩ := collins_12000
  obtain ⟨j1, j2⟩ := johnson_15000
  have hj := johnson_14400
  have e12 : (15e3 / 1.25 : ℝ) = 12000 := by norm_num
  have e15 : (15e3 : ℝ) = 15000 := by norm_num
  have e18 : (18e3 : ℝ) = 18000 := by norm_num
  refine ⟨_, simple_one seed 15e3 (by norm_num), ?_, ?_, ?_⟩
  · intro d h1 h2
    refine ⟨_, complex_one seed d, ?_⟩
    rw [f2t_default d h2, e12, e18]
    rcases (show d / 1.25 ≤ 14400 by rw [div_le_iff₀ (by norm_num)]; norm_num at h2 ⊢; linarith).lt_or_eq with h | h
    · have := (C39_johnson_mono (d / 1.25) 14400 20000 20000 1300 1500 1.62 45 18000
        (by norm_num at h1 ⊢; linarith) (by norm_num) (by norm_num) (by norm_num) (by norm_num) (by norm_num)
        (by norm_num) (by norm_num)).1 h
      linarith
    · rw [h]; linarith
  · rw [e12, e15, e18]; linarith
  · rw [e12, e15, e18]; norm_num; linarith

theorem prieur_pow (L : ℝ) (hL : 0 < L) : prieurDiam 20000 1300 1500 1.62 L ^ 150 =
    1.6 ^ 150 * ((1.61 * 1.62 * L / 20000 ^ 2) ^ 33)⁻¹ * ((1300 * diam2vol L / 1500) ^ 50) := by
  have hv : 0 < diam2vol L := by unfold diam2vol; have := pi_pos; positivity
  unfold prieurDiam
  simp only []
  rw [div_pow, mul_pow, rpow_pow_neg (by positivity) 150 33 (by norm_num),
    rpow_pow (by positivity) 150 50 (by norm_num), div_eq_mul_inv, ← inv_pow (1500 / (1300 * diam2vol L)), inv_div]

theorem prieur_3 : 182.4 < prieurDiam 20000 1300 1500 1.62 3 ∧ prieurDiam 20000 1300 1500 1.62 3 < 200 := by
  have h0 : 0 < prieurDiam 20000 1300 1500 1.62 3 := by
    unfold prieurDiam diam2vol; have := pi_pos; positivity
  have hv : diam2vol 3 = 4.5 * π := by unfold diam2vol; ring
  constructor
  · apply lt_of_pow_lt_pow_left₀ 150 h0.le
    rw [prieur_pow 3 (by norm_num), hv]
    have : (3.14 : ℝ) < π := pi_gt_d2
    calc (182.4 : ℝ) ^ 150 < 1.6 ^ 150 * ((1.61 * 1.62 * 3 / 20000 ^ 2) ^ 33)⁻¹ *
          ((1300 * (4.5 * 3.14) / 1500) ^ 50) := by norm_num
      _ ≤ _ := by gcongr
  · apply lt_of_pow_lt_pow_left₀ 150 (by norm_num)
    rw [prieur_pow 3 (by norm_num), hv]
    have : π < (3.15 : ℝ) := pi_lt_d2
    calc _ ≤ 1.6 ^ 150 * ((1.61 * 1.62 * 3 / 20000 ^ 2) ^ 33)⁻¹ *
          ((1300 * (4.5 * 3.15) / 1500) ^ 50) := by gcongr
      _ < (200 : ℝ) ^ 150 := by norm_num

/-- **C111** simple craters up to 228 m are made by impactors that the ice of small impactors, up to
3 m, counts already. -/
theorem C111_counted_twice : (RunCfg.default seed).impact_regimes.get "b" = .ok (0.01, 3, 1e-4, -3.7) ∧
    (RunCfg.default seed).impact_regimes.get "c" = .ok (100, 1.5e3, 1, -3.82) ∧
    ∀ d L, 100 ≤ d → d ≤ 228 → 0 < L →
      PrieurLaw 20000 1300 1500 1.62 L (final2transient 18e3 1.4e5 d) → L < 3 := by
  refine ⟨rfl, rfl, ?_⟩
  intro d L h1 h2 hL h
  rw [f2t_default d (by norm_num; linarith)] at h
  by_contra hc
  obtain ⟨p1, p2⟩ := prieur_3
  have h3 : PrieurLaw 20000 1300 1500 1.62 3 (prieurDiam 20000 1300 1500 1.62 3) :=
    (prieurLaw_iff _ _ _ _ _ _ (by norm_num) (by norm_num) (by norm_num)).2 rfl
  obtain ⟨-, m, -⟩ := C40_law_increasing 20000 1300 1500 1.62 (by norm_num) (by norm_num) (by norm_num)
    (by norm_num)
  have hd : d / 1.25 ≤ 182.4 := by rw [div_le_iff₀ (by norm_num)]; norm_num; linarith
  rcases (not_lt.1 hc).lt_or_eq with hlt | heq
  · have := (m 3 L _ _ (by norm_num) hlt h3 h).2
    linarith
  · subst heq
    have := (prieurLaw_iff _ _ _ _ _ _ (by norm_num) (by norm_num) (by norm_num)).1 h
    linarith

theorem f2t_19 : 15100 < final2transient 18e3 1.4e5 19e3 := by
  have e : final2transient 18e3 1.4e5 19e3 = 1 / 1.25 * ((19e3 : ℝ) * (18e3 : ℝ) ^ (0.13 : ℝ)) ^ (1 / (1 + 0.13) : ℝ) := by
    unfold final2transient f2tMelosh
    rw [if_neg (by norm_num), if_pos (by norm_num)]
    simp
  rw [e]
  apply lt_of_pow_lt_pow_left₀ 113 (by positivity)
  rw [mul_pow, rpow_pow (by positivity) 113 100 (by norm_num), mul_pow, rpow_pow (by norm_num) 100 13 (by norm_num)]
  norm_num

/-- **C111** with the regimes proposed in the figure neither happens: craters of 250 m need impactors
above 3 m, and complex craters of 19 km larger ones than simple craters of 15 km. -/
theorem C111_proposal : newRegimes.get "c" = .ok (250, 1.5e3, 1, -3.82) ∧
    newRegimes.get "e" = .ok (19e3, 300e3, 1e3, -1.8) ∧
    (∀ L, 0 < L → PrieurLaw 20000 1300 1500 1.62 L (final2transient 18e3 1.4e5 250) → 3 < L) ∧
    ∃ Ld Le, diam2lenOne (RunCfg.default seed).scale 15e3 20000 "d" = .ok Ld ∧
      diam2lenOne (RunCfg.default seed).scale 19e3 20000 "e" = .ok Le ∧ Ld < Le := by
  refine ⟨rfl, rfl, ?_, _, _, simple_one seed 15e3 (by norm_num), complex_one seed 19e3, ?_⟩
  · intro L hL h
    rw [f2t_default 250 (by norm_num)] at h
    by_contra hc
    obtain ⟨p1, p2⟩ := prieur_3
    have h3 : PrieurLaw 20000 1300 1500 1.62 3 (prieurDiam 20000 1300 1500 1.62 3) :=
      (prieurLaw_iff _ _ _ _ _ _ (by norm_num) (by norm_num) (by norm_num)).2 rfl
    obtain ⟨-, m, -⟩ := C40_law_increasing 20000 1300 1500 1.62 (by norm_num) (by norm_num) (by norm_num)
      (by norm_num)
    have e : (250 / 1.25 : ℝ) = 200 := by norm_num
    rw [e] at h
    rcases (not_lt.1 hc).lt_or_eq with hlt | heq
    · have := (m L 3 _ _ hL hlt h h3).2
      linarith
    · subst heq
      have := (prieurLaw_iff _ _ _ _ _ _ (by norm_num) (by norm_num) (by norm_num)).1 h
      linarith
  · have e12 : (15e3 / 1.25 : ℝ) = 12000 := by norm_num
    have e18 : (18e3 : ℝ) = 18000 := by norm_num
    have h1 := collins_12000.2
    have h2 := f2t_19
    rw [e12]
    have h3 : 745 < diam2lenJohnson (final2transient 18e3 1.4e5 19e3) 20000 1300 1500 1.62 45 18e3 := by
      have : johnsonForward 745 20000 1300 1500 1.62 45 18000 < 15100 := by
        apply lt_of_pow_lt_pow_left₀ 100 (by norm_num)
        rw [johnson_pow _ (by norm_num)]
        norm_num
      have := johnson_gt (b := 745) (by norm_num) (johnsonForward_pos _ (by norm_num)) (this.trans h2)
      rw [e18] at this ⊢
      exact this
    linarith

/-- **C111** the vertical axis says kilometres but the numbers are metres: as kilometres every large
simple crater would be smaller than its impactor. -/
theorem C111_units_refuted (d : ℝ) (h1 : 1.5e3 ≤ d) (h2 : d ≤ 15e3) :
    ∃ L, diam2lenOne (RunCfg.default seed).scale d 20000 "d" = .ok L ∧ d / 1e3 < L ∧ L < d := by
  have hd : 0 < d := lt_of_lt_of_le (by norm_num) h1
  have hmono : ∀ a b : ℝ, 0 ≤ a → a ≤ b → collinsForward a 20000 1300 1500 1.62 45 ≤
      collinsForward b 20000 1300 1500 1.62 45 := by
    intro a b ha hab
    unfold collinsForward
    rw [sin_45]
    gcongr
  refine ⟨_, simple_one seed d (by norm_num at h2 ⊢; linarith), ?_, ?_⟩
  · apply collins_gt (by positivity) (collinsForward_pos _ (by positivity))
    have a : collinsForward (d / 1e3) 20000 1300 1500 1.62 45 ≤ collinsForward 15 20000 1300 1500 1.62 45 :=
      hmono _ _ (by positivity) (by norm_num at h2 ⊢; linarith)
    have b : collinsForward 15 20000 1300 1500 1.62 45 < 1200 := by
      apply lt_of_pow_lt_pow_left₀ 150 (by norm_num)
      rw [collins_pow _ (by norm_num)]
      norm_num
    have c : 1200 ≤ d / 1.25 := by norm_num at h1 ⊢; linarith
    linarith
  · apply collins_lt (by positivity) hd
    have a : collinsForward 1500 20000 1300 1500 1.62 45 ≤ collinsForward d 20000 1300 1500 1.62 45 :=
      hmono _ _ (by norm_num) (by norm_num at h1; linarith)
    have b : 12000 < collinsForward 1500 20000 1300 1500 1.62 45 := by
      apply lt_of_pow_lt_pow_left₀ 150 (collinsForward_pos _ (by norm_num)).le
      rw [collins_pow _ (by norm_num)]
      norm_num
    have c : d / 1.25 ≤ 12000 := by norm_num at h2 ⊢; linarith
    linarith

/-- **C111** the figure has a line for each of the regimes c, d and e, from its smallest to its largest
crater in kilometres. -/
theorem C111_lines : ∃ c0 c1 d0 d1 e0 e1, scaleLines (RunCfg.default seed) =
    .ok [("c", [(100 / 1e3, c0), (1.5e3 / 1e3, c1)]), ("d", [(1.5e3 / 1e3, d0), (15e3 / 1e3, d1)]),
      ("e", [(15e3 / 1e3, e0), (300e3 / 1e3, e1)])] ∧
    diam2len (RunCfg.default seed).scale [100, 1.5e3] 20000 "c" = .ok [c0, c1] ∧ c0 ≤ c1 ∧
    diam2len (RunCfg.default seed).scale [1.5e3, 15e3] 20000 "d" = .ok [d0, d1] ∧
    diam2len (RunCfg.default seed).scale [15e3, 300e3] 20000 "e" = .ok [e0, e1] := by
  have hreg : (RunCfg.default seed).impact_regimes.filter (fun p => p.1 ≠ "b") =
      [("c", 100, 1.5e3, 1, -3.82), ("d", 1.5e3, 15e3, 1e2, -1.8), ("e", 15e3, 300e3, 1e3, -1.8)] := rfl
  have hc : ∃ c0 c1, diam2len (RunCfg.default seed).scale [100, 1.5e3] 20000 "c" = .ok [c0, c1] ∧ c0 ≤ c1 := by
    obtain ⟨out, h1, h2, -, h4, -⟩ := C40_prieur [100 / 1.25, 1.5e3 / 1.25] (100 / 1.25) (1.5e3 / 1.25) 20000
      1300 1500 1.62 (by norm_num) (by norm_num) (by norm_num) (by norm_num) (by simp; norm_num) rfl rfl
      (by norm_num)
    match out, h2 with
    | [a, b], _ =>
      refine ⟨a, b, ?_, h4 0 1 _ _ a b rfl rfl rfl rfl (by norm_num)⟩
      unfold diam2len
      rw [if_pos rfl]
      rw [scale_default]
      simp only [List.map_cons, List.map_nil]
      rw [f2t_default 100 (by norm_num), f2t_default 1.5e3 (by norm_num)]
      exact h1
  obtain ⟨c0, c1, hc, hcc⟩ := hc
  have hd : diam2len (RunCfg.default seed).scale [1.5e3, 15e3] 20000 "d" =
      .ok [diam2lenCollins (1.5e3 / 1.25) 20000 1300 1500 1.62 45,
        diam2lenCollins (15e3 / 1.25) 20000 1300 1500 1.62 45] := by
    unfold diam2len
    rw [if_neg (by decide)]
    simp only [List.mapM_cons, List.mapM_nil, simple_one seed 1.5e3 (by norm_num),
      simple_one seed 15e3 (by norm_num), bind, Except.bind, pure, Except.pure]
  have he : diam2len (RunCfg.default seed).scale [15e3, 300e3] 20000 "e" =
      .ok [diam2lenJohnson (final2transient 18e3 1.4e5 15e3) 20000 1300 1500 1.62 45 18e3,
        diam2lenJohnson (final2transient 18e3 1.4e5 300e3) 20000 1300 1500 1.62 45 18e3] := by
    unfold diam2len
    rw [if_neg (by decide)]
    simp only [List.mapM_cons, List.mapM_nil, complex_one, bind, Except.bind, pure, Except.pure]
  refine ⟨c0, c1, _, _, _, _, ?_, hc, hcc, hd, he⟩
  unfold scaleLines
  rw [hreg]
  simp only [List.mapM_cons, List.mapM_nil, scaleLine, hc, hd, he, bind, Except.bind, pure, Except.pure,
    List.map_cons, List.map_nil, List.zip_cons_cons, List.zip_nil_left]

/-- **C111** every basin is shown at its diameter and the length of its impactor, whatever the basins. -/
theorem C111_basins (cfg : ScaleCfg) (diams : List ℝ) : ∃ pts, scaleBasins cfg diams = .ok pts ∧
    pts.length = diams.length ∧ ∀ (i : Nat) d, diams[i]? = some d → ∃ L,
      diam2lenOne cfg d 20000 "f" = .ok L ∧ pts[i]? = some (d / 1e3, L) := by
  have hone : ∀ d, ∃ L, diam2lenOne cfg d 20000 "f" = .ok L := by
    intro d
    unfold diam2lenOne
    simp only []
    rw [if_neg (by decide), if_neg (by decide), if_pos (by decide)]
    exact ⟨_, rfl⟩
  obtain ⟨ls, hls, -⟩ := mapM_ok_exists (fun d => diam2lenOne cfg d 20000 "f") diams (fun d _ => hone d)
  obtain ⟨l1, l2⟩ := mapM_ok_inv _ _ _ hls
  refine ⟨(diams.map (fun d => d / 1e3)).zip ls, ?_, ?_, ?_⟩
  · unfold scaleBasins diam2len
    rw [if_neg (by decide), hls]
    rfl
  · simp [l1]
  · intro i d hd
    obtain ⟨L, h1, h2⟩ := l2 i d hd
    refine ⟨L, h2, ?_⟩
    rw [List.getElem?_zip_eq_some]
    exact ⟨by rw [List.getElem?_map, hd]; rfl, h1⟩

/-- The law of large simple craters holds for the line of the default configuration. -/
example : ∃ p q, scaleLine (RunCfg.default 1).scale "d" 1.5e3 15e3 = .ok [p, q] ∧
    ∃ L, diam2lenOne (RunCfg.default 1).scale 4e3 20000 "d" = .ok L ∧ Spec.OnLogLine p q (4e3 / 1e3, L) := by
  obtain ⟨p, q, h, -, -, hall⟩ := C111_simple_straight (RunCfg.default 1).scale (by rw [scale_default]; norm_num)
    (by rw [scale_default]; norm_num) (by rw [scale_default]; norm_num) (by rw [scale_default]; norm_num)
    (by rw [scale_default]; norm_num) 1.5e3 15e3 (by norm_num) (by norm_num)
    (by rw [scale_default]; norm_num) (by rw [scale_default]; norm_num)
  exact ⟨p, q, h, hall 4e3 (by norm_num) (by norm_num)⟩

end MoonPIES
