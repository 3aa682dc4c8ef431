import Verif.Props.BasinLaw
import Mathlib.Analysis.Real.Pi.Bounds

/-!
# A lower bound on basin ejecta
-/

namespace MoonPIES

open Real Spec

/-- The transient diameter of Croft (1985) in integer powers. -/
theorem f2tCroft_pow (D : ℝ) (hD : 0 < D) : 0 < f2tCroft D ∧ f2tCroft D ^ 59 = D ^ 50 * 18700 ^ 9 := by
  unfold f2tCroft
  simp only []
  have hk : (0 : ℝ) < (18.7e3 : ℝ) ^ (0.18 : ℝ) := by positivity
  refine ⟨by positivity, ?_⟩
  rw [← rpow_natCast, ← rpow_mul (by positivity), mul_rpow hD.le hk.le]
  have e : (1 / (1 + 0.18) : ℝ) * ((59 : ℕ) : ℝ) = ((50 : ℕ) : ℝ) := by norm_num
  rw [e, rpow_natCast, rpow_natCast, ← rpow_natCast ((18.7e3 : ℝ) ^ (0.18 : ℝ)) 50,
    ← rpow_mul (by norm_num)]
  have e2 : (0.18 : ℝ) * ((50 : ℕ) : ℝ) = ((9 : ℕ) : ℝ) := by norm_num
  rw [e2, rpow_natCast]
  norm_num

/-- Between a third and eight ninths of the final diameter. -/
theorem f2tCroft_range (D : ℝ) (h1 : 140000 ≤ D) (h2 : D ≤ 2000000) :
    D / 3 ≤ f2tCroft D ∧ f2tCroft D ≤ 8 / 9 * D := by
  have hD : 0 < D := by linarith
  obtain ⟨hp, he⟩ := f2tCroft_pow D hD
  have hd9 : (140000 : ℝ) ^ 9 ≤ D ^ 9 := pow_le_pow_left₀ (by norm_num) h1 9
  have hd9' : D ^ 9 ≤ 2000000 ^ 9 := pow_le_pow_left₀ hD.le h2 9
  have hD50 : 0 < D ^ 50 := by positivity
  constructor
  · refine le_of_pow_le_pow_left₀ (n := 59) (by norm_num) hp.le ?_
    rw [he, div_pow, show D ^ 59 = D ^ 50 * D ^ 9 by ring, mul_div_assoc]
    refine mul_le_mul_of_nonneg_left ?_ hD50.le
    rw [div_le_iff₀ (by positivity)]
    refine hd9'.trans ?_
    norm_num
  · refine le_of_pow_le_pow_left₀ (n := 59) (by norm_num) (by positivity) ?_
    rw [he, mul_pow, show D ^ 59 = D ^ 50 * D ^ 9 by ring,
      show (8 / 9 : ℝ) ^ 59 * (D ^ 50 * D ^ 9) = D ^ 50 * ((8 / 9 : ℝ) ^ 59 * D ^ 9) by ring]
    refine mul_le_mul_of_nonneg_left ?_ hD50.le
    refine le_trans ?_ (mul_le_mul_of_nonneg_left hd9 (by positivity))
    norm_num

/-- `tan u / (1 + tan u)` with sines. -/
theorem tan_ratio (u : ℝ) (h0 : 0 ≤ u) (h1 : u < π / 2) :
    tan u / (1 + tan u) = sin u / (sin u + cos u) ∧ 1 ≤ sin u + cos u ∧ sin u + cos u ≤ 3 / 2 ∧
      0 ≤ sin u := by
  have hc : 0 < cos u := cos_pos_of_mem_Ioo ⟨by linarith, h1⟩
  have hs : 0 ≤ sin u := sin_nonneg_of_nonneg_of_le_pi h0 (by linarith [pi_pos])
  have hq := sin_sq_add_cos_sq u
  refine ⟨?_, ?_, ?_, hs⟩
  · rw [tan_eq_sin_div_cos]
    field_simp
    rw [add_comm]
  · nlinarith [mul_nonneg hs hc.le]
  · nlinarith [sq_nonneg (sin u - cos u)]

/-- Landing distance on the plane: between the rim and the distance on the sphere. -/
theorem flatDist_range (R0 R x : ℝ) (h0 : 0 < R0) (hR : R ≤ x) (hx : x - R < π * R0) :
    R ≤ flatDist R0 R x ∧ flatDist R0 R x ≤ x := by
  obtain ⟨u, hu⟩ : ∃ t, t = (x - R) / (2 * R0) := ⟨_, rfl⟩
  have u0 : 0 ≤ u := by rw [hu]; exact div_nonneg (by linarith) (by linarith)
  have u1 : u < π / 2 := by
    rw [hu, div_lt_iff₀ (by linarith)]; linarith
  obtain ⟨e, a1, a2, a3⟩ := tan_ratio u u0 u1
  unfold flatDist
  rw [← hu, e]
  have hx2 : x = R + 2 * R0 * u := by rw [hu]; field_simp; ring
  have hle : sin u / (sin u + cos u) ≤ u := by
    rw [div_le_iff₀ (by linarith)]
    nlinarith [sin_le u0]
  have hge : 0 ≤ sin u / (sin u + cos u) := div_nonneg a3 (by linarith)
  constructor
  · nlinarith
  · nlinarith

/-- Distances on the plane grow by at least a quarter of the distance on the sphere. -/
theorem flatDist_step (R0 R x y : ℝ) (h0 : 0 < R0) (hR : R ≤ x) (hxy : x ≤ y)
    (hy : y - R < π * R0) :
    (y - x) / 4 ≤ flatDist R0 R y - flatDist R0 R x := by
  obtain ⟨u, hu⟩ : ∃ t, t = (x - R) / (2 * R0) := ⟨_, rfl⟩
  obtain ⟨v, hv⟩ : ∃ t, t = (y - R) / (2 * R0) := ⟨_, rfl⟩
  have u0 : 0 ≤ u := by rw [hu]; exact div_nonneg (by linarith) (by linarith)
  have uv : u ≤ v := by rw [hu, hv]; gcongr
  have v1 : v < π / 2 := by
    rw [hv, div_lt_iff₀ (by linarith)]; linarith
  obtain ⟨e, a1, a2, a3⟩ := tan_ratio u u0 (by linarith)
  obtain ⟨e', b1, b2, b3⟩ := tan_ratio v (by linarith) v1
  unfold flatDist
  rw [← hu, ← hv, e, e']
  have hd : sin v / (sin v + cos v) - sin u / (sin u + cos u) =
      sin (v - u) / ((sin v + cos v) * (sin u + cos u)) := by
    rw [sin_sub, div_sub_div _ _ (by linarith) (by linarith)]
    congr 1
    ring
  have hs : 2 / π * (v - u) ≤ sin (v - u) := mul_le_sin (by linarith) (by linarith)
  have hpi := pi_lt_d2
  have hpi0 := pi_pos
  have hs2 : (5 / 8) * (v - u) ≤ sin (v - u) := by
    refine le_trans ?_ hs
    refine mul_le_mul_of_nonneg_right ?_ (by linarith)
    rw [le_div_iff₀ hpi0]; linarith
  have hprod : (sin v + cos v) * (sin u + cos u) ≤ 9 / 4 := by nlinarith
  have hpp : 0 < (sin v + cos v) * (sin u + cos u) := by positivity
  have hge : (v - u) / 4 ≤ sin (v - u) / ((sin v + cos v) * (sin u + cos u)) := by
    rw [le_div_iff₀ hpp]
    nlinarith
  have hyx : y - x = 2 * R0 * (v - u) := by rw [hu, hv]; field_simp; ring
  rw [hyx]
  nlinarith [hd, hge]

/-- The ejecta of a basin of 280 to 2000 km diameter, less than five radii from its centre, is
thicker than a millimetre. -/
theorem basin_thick (cfg : EjCfg) (d r : ℝ) (hp : cfg.complex2peakring = 140000)
    (he : cfg.ej_thickness_exp = -3)
    (hm : cfg.rad_moon = 1737400) (hg : cfg.grav_moon = 1.62) (ha : cfg.impact_angle = 45)
    (h1 : 140000 ≤ r) (h2 : r ≤ 700000) (h3 : r < d) (h4 : d < 5 * r) :
    ∃ t, ejThickness cfg (some d) r = .fin t ∧ 0.001 < t := by
  obtain ⟨R, hR⟩ : ∃ t, t = final2transient cfg.simple2complex cfg.complex2peakring (r * 2) / 2 :=
    ⟨_, rfl⟩
  have hR' : R = f2tCroft (r * 2) / 2 := by
    rw [hR]
    unfold final2transient
    simp only []
    rw [if_pos (by rw [hp]; linarith)]
  obtain ⟨c1, c2⟩ := f2tCroft_range (r * 2) (by linarith) (by linarith)
  have R1 : r / 3 ≤ R := by rw [hR']; linarith
  have R2 : R * (9 / 8) ≤ r := by rw [hR']; linarith
  have hRp : 0 < R := by linarith
  have hpi := pi_gt_d2
  obtain ⟨t, ht, hlaw⟩ := C36_basin_law cfg d r R (by linarith) (by rw [hp]; linarith) hR hm hg ha
    (by linarith) (by linarith) (by linarith)
  refine ⟨t, ht, ?_⟩
  rw [he] at hlaw
  obtain ⟨_, -, hS, -⟩ := areaCorr_eq d R 1737400 hRp (by linarith) (by linarith) (by linarith)
  obtain ⟨S, hSd⟩ : ∃ s, s = sphereRing 1737400 (d - R / 8) (d + R / 8) := ⟨_, rfl⟩
  rw [← hSd] at hlaw hS
  have hSle : S ≤ π * 1737400 * R / 2 := by
    have hl := abs_cos_sub_cos_le ((d - R / 8) / 1737400) ((d + R / 8) / 1737400)
    have e : (d - R / 8) / 1737400 - (d + R / 8) / 1737400 = -(R / 4 / 1737400) := by ring
    rw [e, abs_neg, abs_of_pos (show 0 < R / 4 / 1737400 by positivity)] at hl
    have hl' := (abs_le.1 hl).2
    have e2 : S = 2 * π * 1737400 ^ 2 *
        (cos ((d - R / 8) / 1737400) - cos ((d + R / 8) / 1737400)) := by
      rw [hSd]; unfold sphereRing; ring
    rw [e2]
    calc 2 * π * 1737400 ^ 2 * (cos ((d - R / 8) / 1737400) - cos ((d + R / 8) / 1737400))
        ≤ 2 * π * 1737400 ^ 2 * (R / 4 / 1737400) := by gcongr
      _ = π * 1737400 * R / 2 := by ring
  obtain ⟨f1, f2⟩ := flatDist_range 1737400 R d (by norm_num) (by linarith) (by linarith)
  obtain ⟨a1, -⟩ := flatDist_range 1737400 R (d - R / 8) (by norm_num) (by linarith) (by linarith)
  have st := flatDist_step 1737400 R (d - R / 8) (d + R / 8) (by norm_num) (by linarith)
    (by linarith) (by linarith)
  obtain ⟨a, had⟩ : ∃ s, s = flatDist 1737400 R (d - R / 8) := ⟨_, rfl⟩
  obtain ⟨b, hbd⟩ : ∃ s, s = flatDist 1737400 R (d + R / 8) := ⟨_, rfl⟩
  rw [← had] at a1 st hlaw
  rw [← hbd] at st hlaw
  have hst : R / 16 ≤ b - a := by linarith
  have hP : π * (R / 16 * (2 * R)) ≤ planeRing a b := by
    unfold planeRing
    rw [← mul_sub]
    refine mul_le_mul_of_nonneg_left ?_ pi_pos.le
    rw [show b ^ 2 - a ^ 2 = (b - a) * (b + a) by ring]
    have hab : 2 * R ≤ b + a := by linarith
    exact mul_le_mul hst hab (by positivity) (by linarith)
  -- the power law
  obtain ⟨q, hq⟩ : ∃ s, s = flatDist 1737400 R d / R := ⟨_, rfl⟩
  rw [← hq] at hlaw
  have q0 : 1 ≤ q := by rw [hq, le_div_iff₀ hRp]; linarith
  have q1 : q ≤ 15 := by rw [hq, div_le_iff₀ hRp]; linarith
  have hpow : (1 / 3375 : ℝ) ≤ q ^ (-3 : ℝ) := by
    rw [rpow_neg (by linarith), show (3 : ℝ) = ((3 : ℕ) : ℝ) by norm_num, rpow_natCast, one_div]
    apply inv_anti₀ (by positivity)
    calc q ^ 3 ≤ 15 ^ 3 := pow_le_pow_left₀ (by linarith) q1 3
      _ = 3375 := by norm_num
  by_contra hn
  have hn := not_lt.1 hn
  have hup : t * S ≤ 0.001 * (π * 1737400 * R / 2) := by
    calc t * S ≤ 0.001 * S := mul_le_mul_of_nonneg_right hn hS.le
      _ ≤ _ := by gcongr
  have hlow : 0.033 * R * (1 / 3375) * (π * (R / 16 * (2 * R))) ≤ t * S := by
    rw [hlaw]
    gcongr
  have hcmp := hlow.trans hup
  have hRR : (46000 : ℝ) ≤ R := by linarith
  have : 0.033 * R * (1 / 3375) * (R / 16 * 2) ≤ 0.001 * (1737400 / 2) := by
    have hpR : 0 < π * R := by positivity
    refine le_of_mul_le_mul_right ?_ hpR
    calc _ = 0.033 * R * (1 / 3375) * (π * (R / 16 * (2 * R))) := by ring
      _ ≤ _ := hcmp
      _ = _ := by ring
  nlinarith

/-- Ejecta of a basin have the thickness of the specification. -/
theorem basinEjecta_of {cfg : EjCfg} (hs : cfg.simple2complex = 18e3) (hp : cfg.complex2peakring = 1.4e5)
    (hm : cfg.rad_moon = 1737400) (hg : cfg.grav_moon = 1.62) (ha : cfg.impact_angle = 45)
    (he : cfg.ej_thickness_exp = -3) (x r t : ℝ) (k1 : 70000 < r) (k2 : r ≤ 1000000) (h1 : r ≤ x)
    (h2 : x < π * 1737400) (ht : ejThickness cfg (some x) r = .fin t) : BasinEjecta (r * 2) x t := by
  have hc : croft (r * 2) = f2tCroft (r * 2) := by
    unfold croft f2tCroft
    norm_num
  have hR : croft (r * 2) / 2 = final2transient cfg.simple2complex cfg.complex2peakring (r * 2) / 2 := by
    rw [hc]
    unfold final2transient
    simp only []
    rw [if_pos (by rw [hp]; norm_num; linarith)]
  obtain ⟨c1, c2⟩ := f2tCroft_range (r * 2) (by linarith) (by linarith)
  obtain ⟨t', e1, e2⟩ := C36_basin_law cfg x r (croft (r * 2) / 2) (by linarith)
    (by rw [hp]; norm_num; linarith) hR hm hg ha (by rw [hc]; linarith) (by rw [hc]; linarith) h2
  rw [ht, Flt.fin.injEq] at e1
  subst e1
  rw [he] at e2
  exact e2

end MoonPIES
