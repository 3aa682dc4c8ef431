import Verif.Props.EjectaThick
import Verif.Props.Dists

/-!
# Sign of the ejecta thickness up to and beyond the antipode
-/

namespace MoonPIES

open Real

/-- Thickness of a basin's ejecta: a positive multiple of the area correction. -/
theorem basin_form (cfg : EjCfg) (d r R : ℝ) (hr : 0 < r) (hp : cfg.complex2peakring / 2 ≤ r)
    (hR : R = final2transient cfg.simple2complex cfg.complex2peakring (r * 2) / 2)
    (hg : 0 < cfg.grav_moon) (ha0 : 0 < cfg.impact_angle) (ha1 : cfg.impact_angle < 90)
    (h1 : R < d) (h3 : d - R < π * 1737400) :
    ∃ k, 0 < k ∧ ejThickness cfg (some d) r =
      (((areaCorr (d * 1e-3) (R * 1e-3) (cfg.rad_moon * 1e-3)).smul k).smul 1e3).nanToZero := by
  have hRpos : 0 < R := by
    have := C38_transient_positive cfg.simple2complex cfg.complex2peakring (r * 2) (by linarith)
    rw [hR]; linarith
  obtain ⟨v, hv, hv0, -⟩ := C52_bound ((d * 1e-3 - R * 1e-3) * 1e3) EjCfg.default.grav_moon
    EjCfg.default.rad_moon EjCfg.default.impact_angle (by norm_num [EjCfg.default])
    (by norm_num [EjCfg.default]) (by norm_num [EjCfg.default]) (by norm_num [EjCfg.default])
    (by norm_num; linarith) (by norm_num [EjCfg.default]; linarith)
  have hsin : 0 < sin (2 * deg2rad cfg.impact_angle) := by
    obtain ⟨hs, hcs⟩ := angle_trig _ ha0 ha1
    rw [sin_two_mul]; positivity
  unfold ejThickness ejThickBasin
  simp only []
  rw [if_pos hp, ← hR]
  simp only [hv]
  rw [npPow_pos _ _ (by positivity)]
  refine ⟨_, ?_, rfl⟩
  positivity

/-- At the antipode a basin's ejecta is infinitely thick. -/
theorem basin_antipode (cfg : EjCfg) (r R : ℝ) (hr : 0 < r) (hp : cfg.complex2peakring / 2 ≤ r)
    (hR : R = final2transient cfg.simple2complex cfg.complex2peakring (r * 2) / 2)
    (hm : cfg.rad_moon = 1737400) (hRm : R ≤ cfg.rad_moon) (hg : 0 < cfg.grav_moon)
    (ha0 : 0 < cfg.impact_angle) (ha1 : cfg.impact_angle < 90) :
    ejThickness cfg (some (π * 1737400)) r = .inf := by
  have hpi := pi_gt_three
  have hRpos : 0 < R := by
    have := C38_transient_positive cfg.simple2complex cfg.complex2peakring (r * 2) (by linarith)
    rw [hR]; linarith
  rw [hm] at hRm
  obtain ⟨k, hk, e⟩ := basin_form cfg (π * 1737400) r R hr hp hR hg ha0 ha1 (by linarith)
    (by linarith)
  obtain ⟨n, hn, ea⟩ := areaCorr_rings (π * 1737400 * 1e-3) (R * 1e-3) (cfg.rad_moon * 1e-3)
    (by positivity) (by rw [hm]; norm_num; linarith) (by norm_num; linarith)
    (by rw [hm]; norm_num; linarith)
  have hs : sSpherical (π * 1737400 * 1e-3 - R * 1e-3 / 8) (π * 1737400 * 1e-3 + R * 1e-3 / 8)
      (cfg.rad_moon * 1e-3) = 0 := by
    rw [sSpherical_ring _ _ _ (by rw [hm]; norm_num), hm]
    have : π * 1737400 * 1e-3 / (1737400 * 1e-3) = π := by norm_num; linarith
    rw [this, sin_pi]; ring
  rw [e, ea]
  unfold npDiv
  rw [if_pos hs, if_neg hn.ne']
  simp only [Flt.smul]
  rw [if_neg hk.ne']
  simp only []
  rw [if_neg (by norm_num)]
  rfl

/-- Just beyond the antipode of a smaller Moon a basin's ejecta is negative. -/
theorem basin_beyond (cfg : EjCfg) (d r R : ℝ) (hr : 0 < r) (hp : cfg.complex2peakring / 2 ≤ r)
    (hR : R = final2transient cfg.simple2complex cfg.complex2peakring (r * 2) / 2)
    (hRm : R ≤ cfg.rad_moon) (hg : 0 < cfg.grav_moon)
    (ha0 : 0 < cfg.impact_angle) (ha1 : cfg.impact_angle < 90)
    (h1 : π * cfg.rad_moon < d) (h2 : d < π * cfg.rad_moon + 7 / 8 * R) (h3 : d ≤ π * 1737400) :
    ∃ t, ejThickness cfg (some d) r = .fin t ∧ t < 0 := by
  have hpi := pi_gt_three
  have hRpos : 0 < R := by
    have := C38_transient_positive cfg.simple2complex cfg.complex2peakring (r * 2) (by linarith)
    rw [hR]; linarith
  have hm : 0 < cfg.rad_moon := by linarith
  have hRd : R < d := by nlinarith
  obtain ⟨k, hk, e⟩ := basin_form cfg d r R hr hp hR hg ha0 ha1 hRd (by linarith)
  obtain ⟨n, hn, ea⟩ := areaCorr_rings (d * 1e-3) (R * 1e-3) (cfg.rad_moon * 1e-3)
    (by positivity) (by norm_num; linarith) (by norm_num; linarith) (by norm_num; linarith)
  have hs : sSpherical (d * 1e-3 - R * 1e-3 / 8) (d * 1e-3 + R * 1e-3 / 8)
      (cfg.rad_moon * 1e-3) < 0 := by
    rw [sSpherical_ring _ _ _ (by positivity)]
    have s2 : 0 < sin (R * 1e-3 / (8 * (cfg.rad_moon * 1e-3))) := by
      apply sin_pos_of_pos_of_lt_pi (by positivity)
      rw [div_lt_iff₀ (by positivity)]; norm_num; nlinarith
    have e2 : d * 1e-3 / (cfg.rad_moon * 1e-3) = d / cfg.rad_moon := by
      norm_num
      field_simp
    have s1 : sin (d / cfg.rad_moon) < 0 := by
      have : sin (d / cfg.rad_moon) = -sin (d / cfg.rad_moon - π) := by rw [sin_sub_pi, neg_neg]
      rw [this, neg_lt_zero]
      apply sin_pos_of_pos_of_lt_pi
      · rw [sub_pos, lt_div_iff₀ hm]; exact h1
      · rw [sub_lt_iff_lt_add, div_lt_iff₀ hm]; nlinarith
    rw [e2]
    have : sin (d / cfg.rad_moon) * sin (R * 1e-3 / (8 * (cfg.rad_moon * 1e-3))) < 0 :=
      mul_neg_of_neg_of_pos s1 s2
    exact mul_neg_of_pos_of_neg (by positivity) this
  rw [e, ea]
  unfold npDiv
  rw [if_neg hs.ne]
  refine ⟨_, rfl, ?_⟩
  apply mul_neg_of_pos_of_neg (by norm_num)
  exact mul_neg_of_pos_of_neg hk (div_neg_of_pos_of_neg hn hs)

end MoonPIES
