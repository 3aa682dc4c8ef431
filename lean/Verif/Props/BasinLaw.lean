import Verif.Lemmas.EjectaSign
import Verif.Spec.BasinLaw

/-!
# C36: the laws of ejecta thickness
-/

namespace MoonPIES

open Real

open Spec

/-- **C36** simple and complex craters: the law of Kring is `0.04 r (d / r) ^ e` for simple and
`0.14 r ^ 0.74 (d / r) ^ e` for complex craters. -/
theorem C36_laws (cfg : EjCfg) (d r : ℝ) (hd : 0 < d) (hr : 0 < r) :
    (r < cfg.simple2complex / 2 → cfg.simple2complex ≤ cfg.complex2peakring →
      ejThickness cfg (some d) r = .fin (0.04 * r * (d / r) ^ cfg.ej_thickness_exp)) ∧
    (cfg.simple2complex / 2 < r → r < cfg.complex2peakring / 2 →
      ejThickness cfg (some d) r =
        .fin (0.14 * r ^ (0.74 : ℝ) * (d / r) ^ cfg.ej_thickness_exp)) :=
  ⟨fun h hc => thick_simple cfg d r hd hr h hc, fun h hp => thick_complex cfg d r hd hr h hp⟩

/-- The area correction is the quotient of both rings. -/
theorem areaCorr_eq (d R R0 : ℝ) (hR : 0 < R) (hR0 : R ≤ R0) (h1 : R < d) (h2 : d < π * R0) :
    ∃ a, areaCorr d R R0 = .fin a ∧ 0 < sphereRing R0 (d - R / 8) (d + R / 8) ∧
      a * sphereRing R0 (d - R / 8) (d + R / 8) =
        planeRing (flatDist R0 R (d - R / 8)) (flatDist R0 R (d + R / 8)) := by
  obtain ⟨a, ha, ha0⟩ := areaCorr_pos d R R0 hR hR0 h1 h2
  have hR0' : 0 < R0 := by linarith
  have es : sSpherical (d - R / 8) (d + R / 8) R0 = sphereRing R0 (d - R / 8) (d + R / 8) := by
    unfold sSpherical sphereRing; ring
  have hS : 0 < sphereRing R0 (d - R / 8) (d + R / 8) := by
    rw [← es, sSpherical_ring _ _ _ hR0']
    have s1 : 0 < sin (d / R0) := by
      apply sin_pos_of_pos_of_lt_pi (div_pos (by linarith) hR0')
      rw [div_lt_iff₀ hR0']; exact h2
    have s2 : 0 < sin (R / (8 * R0)) := by
      apply sin_pos_of_pos_of_lt_pi (by positivity)
      have := pi_gt_three
      rw [div_lt_iff₀ (by positivity)]; nlinarith
    positivity
  refine ⟨a, ha, hS, ?_⟩
  have hsoi : ∀ x y, rSoi x R R0 = .fin y → y = flatDist R0 R x := by
    intro x y h
    unfold rSoi npDiv at h
    simp only [] at h
    by_cases h0 : tan ((x - R) / (2 * R0)) + 1 = 0
    · rw [if_pos h0] at h
      split_ifs at h
    · rw [if_neg h0] at h
      injection h with h
      rw [← h]
      unfold flatDist
      rw [mul_div_assoc, add_comm (tan _) 1]
  unfold areaCorr at ha
  simp only [] at ha
  cases hi : rSoi (d - R / 8) R R0 with
  | nan => rw [hi] at ha; cases ha
  | inf => rw [hi] at ha; cases ha
  | fin x =>
    cases ho : rSoi (d + R / 8) R R0 with
    | nan => rw [hi, ho] at ha; cases ha
    | inf => rw [hi, ho] at ha; cases ha
    | fin y =>
      rw [hi, ho] at ha
      simp only [es] at ha
      unfold npDiv at ha
      rw [if_neg hS.ne'] at ha
      injection ha with ha
      rw [← ha, ← hsoi _ _ hi, ← hsoi _ _ ho]
      rw [div_mul_cancel₀ _ hS.ne']
      unfold planeRing
      ring

/-- **C36** basins: on the Moon with ejection at 45 degrees the ejecta between the transient rim and
the antipode follows the law of Pike, `0.033 R (x / R) ^ e`, at the distance `x` where it would land
on a plane, spread from the plane ring that a ring of an eighth of the radius to both sides comes
from over this ring of the sphere. -/
theorem C36_basin_law (cfg : EjCfg) (d r R : ℝ) (hr : 0 < r) (hp : cfg.complex2peakring / 2 ≤ r)
    (hR : R = final2transient cfg.simple2complex cfg.complex2peakring (r * 2) / 2)
    (hm : cfg.rad_moon = 1737400) (hg : cfg.grav_moon = 1.62) (ha : cfg.impact_angle = 45)
    (hRm : R ≤ 1737400) (h1 : R < d) (h2 : d < π * 1737400) :
    ∃ t, ejThickness cfg (some d) r = .fin t ∧
      t * sphereRing 1737400 (d - R / 8) (d + R / 8) =
        0.033 * R * (flatDist 1737400 R d / R) ^ cfg.ej_thickness_exp *
          planeRing (flatDist 1737400 R (d - R / 8)) (flatDist 1737400 R (d + R / 8)) := by
  have hRpos : 0 < R := by
    have := C38_transient_positive cfg.simple2complex cfg.complex2peakring (r * 2) (by linarith)
    rw [hR]; linarith
  have hk : ((1737400 : ℝ) * 1e-3) = 1737.4 := by norm_num
  -- rings in kilometres
  obtain ⟨a, hA, hS, hsp⟩ := areaCorr_eq (d * 1e-3) (R * 1e-3) (1737400 * 1e-3)
    (by positivity) (by norm_num; linarith) (by norm_num; linarith) (by norm_num; linarith)
  have ef : ∀ x, flatDist (1737400 * 1e-3) (R * 1e-3) (x * 1e-3) = flatDist 1737400 R x * 1e-3 := by
    intro x
    unfold flatDist
    have : (x * 1e-3 - R * 1e-3) / (2 * (1737400 * 1e-3)) = (x - R) / (2 * 1737400) := by
      rw [← sub_mul, ← mul_assoc, mul_div_mul_right _ _ (by norm_num)]
    rw [this]; ring
  have ei : d * 1e-3 - R * 1e-3 / 8 = (d - R / 8) * 1e-3 := by ring
  have eo : d * 1e-3 + R * 1e-3 / 8 = (d + R / 8) * 1e-3 := by ring
  have esr : ∀ x y, sphereRing (1737400 * 1e-3) (x * 1e-3) (y * 1e-3) =
      sphereRing 1737400 x y * (1e-3) ^ 2 := by
    intro x y
    unfold sphereRing
    rw [mul_div_mul_right _ _ (by norm_num : (1e-3 : ℝ) ≠ 0),
      mul_div_mul_right _ _ (by norm_num : (1e-3 : ℝ) ≠ 0)]
    ring
  rw [ei, eo, esr, ef, ef] at hsp
  have epr : ∀ x y, planeRing (x * 1e-3) (y * 1e-3) = planeRing x y * (1e-3) ^ 2 := by
    intro x y; unfold planeRing; ring
  rw [epr, ← mul_assoc] at hsp
  have hsp := mul_right_cancel₀ (by norm_num : ((1e-3 : ℝ)) ^ 2 ≠ 0) hsp
  -- the flight
  have ht0 : 0 < tan ((d - R) / (2 * 1737400)) := by
    apply tan_pos_of_pos_of_lt_pi_div_two
    · apply div_pos <;> linarith
    · rw [div_lt_iff₀ (by norm_num)]; linarith
  have ea : deg2rad 45 = π / 4 := by unfold deg2rad; ring
  have hm2 : √2 / 2 * (√2 / 2) = 1 / 2 := by
    rw [div_mul_div_comm, mul_self_sqrt (by norm_num)]; norm_num
  have hv := ballistic_fin ((d * 1e-3 - R * 1e-3) * 1e3) EjCfg.default.grav_moon
    EjCfg.default.rad_moon EjCfg.default.impact_angle (by norm_num [EjCfg.default])
    (by norm_num [EjCfg.default]) (by norm_num [EjCfg.default]) (by norm_num [EjCfg.default])
    (by norm_num; linarith) (by norm_num [EjCfg.default]; linarith)
  obtain ⟨v, hvv⟩ : ∃ v, v = sqrt (EjCfg.default.grav_moon * EjCfg.default.rad_moon *
      tan ((d * 1e-3 - R * 1e-3) * 1e3 / (2 * EjCfg.default.rad_moon)) /
      (sin (deg2rad EjCfg.default.impact_angle) * cos (deg2rad EjCfg.default.impact_angle) +
        cos (deg2rad EjCfg.default.impact_angle) ^ 2 *
          tan ((d * 1e-3 - R * 1e-3) * 1e3 / (2 * EjCfg.default.rad_moon)))) := ⟨_, rfl⟩
  rw [← hvv] at hv
  have hv2 : v ^ 2 = 1.62 * (2 * 1737400 * (tan ((d - R) / (2 * 1737400)) /
      (1 + tan ((d - R) / (2 * 1737400))))) := by
    have e : (d * 1e-3 - R * 1e-3) * 1e3 / (2 * 1737.4e3) = (d - R) / (2 * 1737400) := by
      norm_num; ring
    have h0 : (1 : ℝ) + tan ((d - R) / (2 * 1737400)) ≠ 0 := by linarith
    rw [hvv]
    simp only [EjCfg.default, ea, sin_pi_div_four, cos_pi_div_four, sq (√2 / 2), hm2, e]
    rw [sq_sqrt]
    · have : (1 / 2 + 1 / 2 * tan ((d - R) / (2 * 1737400))) =
          (1 + tan ((d - R) / (2 * 1737400))) / 2 := by ring
      rw [this]
      field_simp
      norm_num
    · positivity
  refine ⟨1e3 * ((0.033 * (R * 1e-3)) * (flatDist 1737400 R d / R) ^ cfg.ej_thickness_exp * a),
    ?_, ?_⟩
  rotate_left
  · rw [← hsp]; ring
  · unfold ejThickness ejThickBasin
    simp only []
    rw [if_pos hp, ← hR, hm, hg, ha, ea]
    simp only [hv, hA]
    have es : sin (2 * (π / 4)) = 1 := by
      rw [show 2 * (π / 4) = π / 2 by ring, sin_pi_div_two]
    have eq : (R * 1e-3 + (v / 1e3) ^ 2 * sin (2 * (π / 4)) / (1.62 * 1e-3)) / (R * 1e-3) =
        flatDist 1737400 R d / R := by
      rw [es, mul_one, div_pow, hv2]
      unfold flatDist
      rw [show (R + 2 * 1737400 * (tan ((d - R) / (2 * 1737400)) /
        (1 + tan ((d - R) / (2 * 1737400))))) / R = ((R + 2 * 1737400 * (tan ((d - R) / (2 * 1737400)) /
        (1 + tan ((d - R) / (2 * 1737400))))) * 1e-3) / (R * 1e-3) from
        (mul_div_mul_right _ _ (by norm_num)).symm]
      congr 1
      norm_num
      ring
    rw [eq, npPow_pos]
    · simp only [Flt.smul, Flt.mul, Flt.nanToZero]
    · apply div_pos _ hRpos
      unfold flatDist
      positivity

/-- A basin of radius 500 km seen from 2000 km: the hypotheses hold. -/
example : ∃ t R, 0 < R ∧ R < 500000 ∧ ejThickness EjCfg.default (some 2000000) 500000 = .fin t ∧
    t * sphereRing 1737400 (2000000 - R / 8) (2000000 + R / 8) =
      0.033 * R * (flatDist 1737400 R 2000000 / R) ^ (-3 : ℝ) *
        planeRing (flatDist 1737400 R (2000000 - R / 8)) (flatDist 1737400 R (2000000 + R / 8)) := by
  obtain ⟨h0, h1, _⟩ := C38_transient_default (500000 * 2) (by norm_num)
  have hpi := pi_gt_three
  obtain ⟨t, ht, h⟩ := C36_basin_law EjCfg.default 2000000 500000 _ (by norm_num)
    (by norm_num [EjCfg.default]) rfl (by norm_num [EjCfg.default]) rfl rfl
    (by simp only [EjCfg.default]; linarith) (by simp only [EjCfg.default]; linarith)
    (by linarith)
  exact ⟨t, _, by simp only [EjCfg.default]; linarith, by simp only [EjCfg.default]; linarith, ht, h⟩

end MoonPIES
