import Verif.Props.Transient
import Mathlib.Analysis.Real.Pi.Bounds
import Verif.Props.Ballistic

/-!
# C36: ejecta thickness
-/

namespace MoonPIES

open Real

theorem npPow_pos (b e : ℝ) (h : 0 < b) : npPow b e = .fin (b ^ e) := by
  unfold npPow
  rw [if_neg (not_lt.2 h.le), if_neg (fun hh => absurd hh.1 h.ne')]

/-- Thickness law of a simple crater. -/
theorem thick_simple (cfg : EjCfg) (d r : ℝ) (hd : 0 < d) (hr : 0 < r)
    (hs : r < cfg.simple2complex / 2) (hc : cfg.simple2complex ≤ cfg.complex2peakring) :
    ejThickness cfg (some d) r = .fin (0.04 * r * (d / r) ^ cfg.ej_thickness_exp) := by
  unfold ejThickness ejThickSimple
  simp only []
  rw [if_neg (by linarith), if_neg (fun hh => absurd hh.1 (not_lt.2 hs.le)), if_pos hs,
    if_neg hr.ne', npPow_pos _ _ (by positivity)]
  rfl

/-- Thickness law of a complex crater. -/
theorem thick_complex (cfg : EjCfg) (d r : ℝ) (hd : 0 < d) (hr : 0 < r)
    (hs : cfg.simple2complex / 2 < r) (hc : r < cfg.complex2peakring / 2) :
    ejThickness cfg (some d) r =
      .fin (0.14 * r ^ (0.74 : ℝ) * (d / r) ^ cfg.ej_thickness_exp) := by
  unfold ejThickness ejThickComplex
  simp only []
  rw [if_neg (not_le.2 hc), if_pos ⟨hs, hc⟩, if_neg hr.ne', npPow_pos _ _ hr,
    npPow_pos _ _ (by positivity)]
  rfl

/-- **C36** a missing distance gives no ejecta, whatever the radius. -/
theorem C36_missing_distance (cfg : EjCfg) (r : ℝ) : ejThickness cfg none r = .fin 0 := rfl

/-- **C36** positive for each simple or complex crater. -/
theorem C36_positive_partial (cfg : EjCfg) (d r : ℝ) (hd : 0 < d) (hr : 0 < r)
    (hc : cfg.simple2complex ≤ cfg.complex2peakring) (hb : r ≠ cfg.simple2complex / 2)
    (hp : r < cfg.complex2peakring / 2) : ∃ t, ejThickness cfg (some d) r = .fin t ∧ 0 < t := by
  rcases lt_or_gt_of_ne hb with h | h
  · exact ⟨_, thick_simple cfg d r hd hr h hc, by positivity⟩
  · exact ⟨_, thick_complex cfg d r hd hr h hp, by positivity⟩

/-- **C36** strictly thinner further out, for simple and complex craters with a negative
exponent. -/
theorem C36_decreasing (cfg : EjCfg) (d1 d2 r t1 t2 : ℝ) (h1 : 0 < d1) (h12 : d1 < d2)
    (hr : 0 < r) (hc : cfg.simple2complex ≤ cfg.complex2peakring) (hb : r ≠ cfg.simple2complex / 2)
    (hp : r < cfg.complex2peakring / 2) (he : cfg.ej_thickness_exp < 0)
    (e1 : ejThickness cfg (some d1) r = .fin t1) (e2 : ejThickness cfg (some d2) r = .fin t2) :
    t2 < t1 := by
  have hlt : (d2 / r) ^ cfg.ej_thickness_exp < (d1 / r) ^ cfg.ej_thickness_exp :=
    Real.rpow_lt_rpow_of_neg (by positivity) (div_lt_div_of_pos_right h12 hr) he
  rcases lt_or_gt_of_ne hb with h | h
  · rw [thick_simple cfg _ r h1 hr h hc, Flt.fin.injEq] at e1
    rw [thick_simple cfg _ r (h1.trans h12) hr h hc, Flt.fin.injEq] at e2
    rw [← e1, ← e2]
    exact mul_lt_mul_of_pos_left hlt (by positivity)
  · rw [thick_complex cfg _ r h1 hr h hp, Flt.fin.injEq] at e1
    rw [thick_complex cfg _ r (h1.trans h12) hr h hp, Flt.fin.injEq] at e2
    rw [← e1, ← e2]
    exact mul_lt_mul_of_pos_left hlt (by positivity)

/-- **C36** thicker for the larger crater at the same number of radii (simple craters):
the law is `0.04 r` at the rim. -/
theorem C36_rim_thickness (cfg : EjCfg) (r : ℝ) (hr : 0 < r)
    (hc : cfg.simple2complex ≤ cfg.complex2peakring) (h : r < cfg.simple2complex / 2) :
    ejThickness cfg (some r) r = .fin (0.04 * r) := by
  rw [thick_simple cfg r r hr hr h hc, div_self hr.ne', one_rpow, mul_one]

/-- **C36** at the centre the law of simple and complex craters diverges for a negative exponent and
vanishes for a positive one. -/
theorem C36_centre (cfg : EjCfg) (r : ℝ) (hr : 0 < r) (hb : r ≠ cfg.simple2complex / 2)
    (hp : r < cfg.complex2peakring / 2) :
    (cfg.ej_thickness_exp < 0 → ejThickness cfg (some 0) r = .inf) ∧
    (0 < cfg.ej_thickness_exp → ejThickness cfg (some 0) r = .fin 0) := by
  have h0 : ¬ (0 : ℝ) < 0 := lt_irrefl _
  have hpow : (cfg.ej_thickness_exp < 0 → npPow 0 cfg.ej_thickness_exp = .inf) ∧
      (0 < cfg.ej_thickness_exp → npPow 0 cfg.ej_thickness_exp = .fin 0) := by
    unfold npPow
    constructor
    · intro he
      rw [if_neg h0, if_pos ⟨rfl, he⟩]
    · intro he
      rw [if_neg h0, if_neg (fun hh => absurd hh.2 (not_lt.2 he.le)), Real.zero_rpow he.ne']
  unfold ejThickness
  simp only []
  rw [if_neg (not_le.2 hp)]
  rcases lt_or_gt_of_ne hb with h | h
  · rw [if_neg (fun hh => absurd hh.1 (not_lt.2 h.le)), if_pos h]
    unfold ejThickSimple
    rw [if_neg hr.ne', zero_div]
    have hne : (0.04 : ℝ) * r ≠ 0 := by positivity
    constructor
    · intro he
      rw [hpow.1 he]
      simp only [Flt.smul, if_neg hne, Flt.nanToZero]
    · intro he
      rw [hpow.2 he]
      simp only [Flt.smul, Flt.nanToZero, mul_zero]
  · rw [if_pos ⟨h, hp⟩]
    unfold ejThickComplex
    rw [if_neg hr.ne', zero_div, npPow_pos _ _ hr]
    have hne : (0.14 : ℝ) * r ^ (0.74 : ℝ) ≠ 0 := by positivity
    constructor
    · intro he
      rw [hpow.1 he]
      simp only [Flt.smul, Flt.mul, if_neg hne, Flt.nanToZero]
    · intro he
      rw [hpow.2 he]
      simp only [Flt.smul, Flt.mul, Flt.nanToZero, mul_zero]

/-- **C36 refuted**: a crater whose radius is exactly half the simple-to-complex
transition falls between the masks and gives no ejecta at any distance. -/
theorem C36_transition_gap (cfg : EjCfg) (d : ℝ) (h : cfg.simple2complex < cfg.complex2peakring) :
    ejThickness cfg (some d) (cfg.simple2complex / 2) = .fin 0 := by
  unfold ejThickness
  simp only []
  rw [if_neg (by linarith), if_neg (fun hh => absurd hh.1 (lt_irrefl _)), if_neg (lt_irrefl _)]
  rfl

theorem C36_positive_refuted :
    ¬ ∀ (d r : ℝ), 0 < d → 0 < r → ∃ t, ejThickness EjCfg.default (some d) r = .fin t ∧ 0 < t := by
  intro h
  obtain ⟨t, ht, hpos⟩ := h 20000 (EjCfg.default.simple2complex / 2) (by norm_num)
    (by norm_num [EjCfg.default])
  rw [C36_transition_gap _ _ (by norm_num [EjCfg.default]), Flt.fin.injEq] at ht
  linarith

/-! ### Basins -/

theorem tan_le_two_mul (u : ℝ) (h0 : 0 ≤ u) (h1 : u ≤ 1 / 2) : tan u ≤ 2 * u := by
  have hc : 1 / 2 ≤ cos u := by
    have := one_sub_sq_div_two_le_cos (x := u)
    nlinarith
  rw [tan_eq_sin_div_cos, div_le_iff₀ (by linarith)]
  have := sin_le h0
  nlinarith

/-- `t / (1 + t)` is increasing above `-1`. -/
theorem frac_mono (s t : ℝ) (hs : -1 < s) (hst : s < t) : s / (s + 1) < t / (t + 1) := by
  rw [div_lt_div_iff₀ (by linarith) (by linarith)]
  nlinarith

/-- The area of the spherical ring. -/
theorem sSpherical_ring (d R R0 : ℝ) (hR0 : 0 < R0) :
    sSpherical (d - R / 8) (d + R / 8) R0 =
      4 * π * R0 ^ 2 * (sin (d / R0) * sin (R / (8 * R0))) := by
  unfold sSpherical
  have e1 : (d - R / 8) / R0 = d / R0 - R / (8 * R0) := by field_simp
  have e2 : (d + R / 8) / R0 = d / R0 + R / (8 * R0) := by field_simp
  rw [e1, e2, cos_sub, cos_add]; ring

/-- The area correction divides a positive flat ring by the spherical one, from the transient radius
to a little beyond the antipode. -/
theorem areaCorr_rings (d R R0 : ℝ) (hR : 0 < R) (hR0 : R ≤ R0) (h1 : R < d)
    (h2 : d < π * R0 + 7 / 8 * R) :
    ∃ n, 0 < n ∧ areaCorr d R R0 = npDiv n (sSpherical (d - R / 8) (d + R / 8) R0) := by
  have hR0' : 0 < R0 := by linarith
  have hp := pi_gt_three
  set u := R / (16 * R0) with hu
  have hu0 : 0 < u := by positivity
  have hu1 : u ≤ 1 / 16 := by
    rw [hu, div_le_iff₀ (by positivity)]; linarith
  have hRu : R = 16 * u * R0 := by rw [hu]; field_simp
  -- angles of the inner and outer ring
  have ai : (d - R / 8 - R) / (2 * R0) = (d - R) / (2 * R0) - u := by rw [hu]; field_simp; ring
  have ao : (d + R / 8 - R) / (2 * R0) = (d - R) / (2 * R0) + u := by rw [hu]; field_simp; ring
  have p0 : 0 < (d - R) / (2 * R0) := div_pos (by linarith) (by positivity)
  have p1 : (d - R) / (2 * R0) + u < π / 2 := by
    have e : (d - R) / (2 * R0) + u = (d - 7 / 8 * R) / (2 * R0) := by rw [hu]; field_simp; ring
    rw [e, div_lt_iff₀ (by positivity)]; linarith
  have hti : -(2 * u) ≤ tan ((d - R) / (2 * R0) - u) := by
    have h3 : tan (-u) < tan ((d - R) / (2 * R0) - u) :=
      tan_lt_tan_of_lt_of_lt_pi_div_two (by linarith) (by linarith) (by linarith)
    rw [tan_neg] at h3
    have := tan_le_two_mul u hu0.le (by linarith)
    linarith
  have hlt : tan ((d - R) / (2 * R0) - u) < tan ((d - R) / (2 * R0) + u) :=
    tan_lt_tan_of_lt_of_lt_pi_div_two (by linarith) p1 (by linarith)
  unfold areaCorr rSoi
  simp only [ai, ao]
  generalize tan ((d - R) / (2 * R0) - u) = s at *
  generalize tan ((d - R) / (2 * R0) + u) = t at *
  have hs1 : -1 < s := by linarith
  have q1 : npDiv (2 * R0 * s) (s + 1) = .fin (2 * R0 * s / (s + 1)) := by
    unfold npDiv; rw [if_neg (by linarith)]
  have q2 : npDiv (2 * R0 * t) (t + 1) = .fin (2 * R0 * t / (t + 1)) := by
    unfold npDiv; rw [if_neg (by linarith)]
  rw [q1, q2]
  simp only []
  refine ⟨_, mul_pos pi_pos ?_, rfl⟩
  have hf := frac_mono s t hs1 hlt
  have hlow : -(2 * u) / (1 - 2 * u) ≤ s / (s + 1) := by
    rw [div_le_div_iff₀ (by linarith) (by linarith)]
    nlinarith
  have hlow2 : -(4 * u) ≤ -(2 * u) / (1 - 2 * u) := by
    rw [le_div_iff₀ (by linarith)]
    nlinarith
  have hA : 0 < R + 2 * R0 * s / (s + 1) := by
    have e : 2 * R0 * s / (s + 1) = 2 * R0 * (s / (s + 1)) := by ring
    rw [e]
    have : 2 * R0 * -(4 * u) ≤ 2 * R0 * (s / (s + 1)) :=
      mul_le_mul_of_nonneg_left (hlow2.trans hlow) (by positivity)
    have : 0 < u * R0 := by positivity
    linarith
  have hAB : R + 2 * R0 * s / (s + 1) < R + 2 * R0 * t / (t + 1) := by
    have e : ∀ x : ℝ, 2 * R0 * x / (x + 1) = 2 * R0 * (x / (x + 1)) := fun x => by ring
    rw [e, e]
    have := mul_lt_mul_of_pos_left hf (show (0 : ℝ) < 2 * R0 by positivity)
    linarith
  nlinarith

/-- The area correction is positive between the transient radius and the antipode. -/
theorem areaCorr_pos (d R R0 : ℝ) (hR : 0 < R) (hR0 : R ≤ R0) (h1 : R < d) (h2 : d < π * R0) :
    ∃ a, areaCorr d R R0 = .fin a ∧ 0 < a := by
  have hR0' : 0 < R0 := by linarith
  obtain ⟨n, hn, e⟩ := areaCorr_rings d R R0 hR hR0 h1 (by linarith)
  have hsph : 0 < sSpherical (d - R / 8) (d + R / 8) R0 := by
    rw [sSpherical_ring _ _ _ hR0']
    have s1 : 0 < sin (d / R0) := by
      apply sin_pos_of_pos_of_lt_pi (div_pos (by linarith) hR0')
      rw [div_lt_iff₀ hR0']; exact h2
    have s2 : 0 < sin (R / (8 * R0)) := by
      apply sin_pos_of_pos_of_lt_pi (by positivity)
      have := pi_gt_three
      rw [div_lt_iff₀ (by positivity)]; nlinarith
    positivity
  refine ⟨_, ?_, div_pos hn hsph⟩
  rw [e]
  unfold npDiv
  rw [if_neg hsph.ne']

/-- **C36** a basin's ejecta is positive between its transient rim and the antipode (of
both the configured and the default Moon), for every angle between 0 and 90 degrees and
every exponent. -/
theorem C36_basin_positive_partial (cfg : EjCfg) (d r R : ℝ) (hr : 0 < r)
    (hp : cfg.complex2peakring / 2 ≤ r)
    (hR : R = final2transient cfg.simple2complex cfg.complex2peakring (r * 2) / 2)
    (hRm : R ≤ cfg.rad_moon) (hg : 0 < cfg.grav_moon) (ha0 : 0 < cfg.impact_angle)
    (ha1 : cfg.impact_angle < 90) (h1 : R < d) (h2 : d < π * cfg.rad_moon)
    (h3 : d < π * 1737400) :
    ∃ t, ejThickness cfg (some d) r = .fin t ∧ 0 < t := by
  have hRpos : 0 < R := by
    have := C38_transient_positive cfg.simple2complex cfg.complex2peakring (r * 2) (by linarith)
    rw [hR]; linarith
  obtain ⟨v, hv, hv0, -⟩ := C52_bound ((d * 1e-3 - R * 1e-3) * 1e3) EjCfg.default.grav_moon
    EjCfg.default.rad_moon EjCfg.default.impact_angle (by norm_num [EjCfg.default])
    (by norm_num [EjCfg.default]) (by norm_num [EjCfg.default]) (by norm_num [EjCfg.default])
    (by norm_num; linarith) (by norm_num [EjCfg.default]; linarith)
  obtain ⟨a, hA, ha⟩ := areaCorr_pos (d * 1e-3) (R * 1e-3) (cfg.rad_moon * 1e-3)
    (by positivity) (by norm_num; linarith) (by norm_num; linarith) (by norm_num; linarith)
  have hsin : 0 < sin (2 * deg2rad cfg.impact_angle) := by
    obtain ⟨hs, hcs⟩ := angle_trig _ ha0 ha1
    rw [sin_two_mul]; positivity
  unfold ejThickness ejThickBasin
  simp only []
  rw [if_pos hp, ← hR]
  simp only [hv, hA]
  rw [npPow_pos _ _ (by positivity)]
  refine ⟨_, rfl, ?_⟩
  positivity

/-- **C36 (partial)** a basin's ejecta inside its transient radius is dropped: the flight
speed is the root of a negative number, NaN, and becomes 0. -/
theorem C36_basin_inside_zero (cfg : EjCfg) (d r R : ℝ)
    (hp : cfg.complex2peakring / 2 ≤ r)
    (hR : R = final2transient cfg.simple2complex cfg.complex2peakring (r * 2) / 2)
    (h1 : d < R) (h2 : R - d < 1000000) :
    ejThickness cfg (some d) r = .fin 0 := by
  have hv : ballisticVelocity ((d * 1e-3 - R * 1e-3) * 1e3) EjCfg.default.grav_moon
      EjCfg.default.rad_moon EjCfg.default.impact_angle = .nan := by
    have hpi := pi_gt_three
    have ea : deg2rad 45 = π / 4 := by unfold deg2rad; ring
    have e : (d * 1e-3 - R * 1e-3) * 1e3 / (2 * 1737.4e3) = -((R - d) / 3474800) := by
      norm_num; ring
    set x := (R - d) / 3474800 with hx
    have hx0 : 0 < x := by rw [hx]; apply div_pos <;> linarith
    have hx1 : x < 1 / 3 := by rw [hx, div_lt_iff₀ (by norm_num)]; linarith
    have ht0 : 0 < tan x := tan_pos_of_pos_of_lt_pi_div_two hx0 (by linarith)
    have ht1 : tan x < 1 := by
      rw [← tan_pi_div_four]
      exact tan_lt_tan_of_nonneg_of_lt_pi_div_two hx0.le (by linarith) (by linarith)
    have hm : √2 / 2 * (√2 / 2) = 1 / 2 := by
      rw [div_mul_div_comm, mul_self_sqrt (by norm_num)]; norm_num
    unfold ballisticVelocity npDiv EjCfg.default
    simp only [e, ea, tan_neg, sin_pi_div_four, cos_pi_div_four, sq, hm]
    rw [if_neg (by linarith)]
    simp only [Flt.sqrt]
    rw [if_pos]
    apply div_neg_of_neg_of_pos
    · nlinarith
    · linarith
  unfold ejThickness ejThickBasin
  simp only []
  rw [if_pos hp, ← hR]
  simp only [hv]
  rfl

/-- A 1 km crater leaves 5 m at two radii with the default exponent. -/
example : ejThickness EjCfg.default (some 2000) 1000 = .fin 5 := by
  rw [thick_simple _ _ _ (by norm_num) (by norm_num) (by norm_num [EjCfg.default])
    (by norm_num [EjCfg.default])]
  have : (2000 / 1000 : ℝ) ^ EjCfg.default.ej_thickness_exp = 1 / 8 := by
    have e : EjCfg.default.ej_thickness_exp = ((-3 : ℤ) : ℝ) := by norm_num [EjCfg.default]
    rw [e, Real.rpow_intCast]; norm_num
  rw [this]; norm_num

end MoonPIES
