import Verif.Model.Geo
import Mathlib.Geometry.Euclidean.Angle.Unoriented.TriangleInequality
import Mathlib.Analysis.InnerProductSpace.PiL2
import Mathlib.Tactic.Linarith
import Mathlib.Tactic.NormNum
import Mathlib.Tactic.Positivity
import Mathlib.Tactic.FieldSimp
import Mathlib.Tactic.LinearCombination

/-!
# C34, C35: great-circle distance and map projection
-/

namespace MoonPIES

open Real InnerProductGeometry

/-- Spec: the unit vector pointing at a latitude and longitude in degrees. -/
noncomputable def direction (lat lon : ℝ) : EuclideanSpace ℝ (Fin 3) :=
  !₂[cos (lat * π / 180) * cos (lon * π / 180), cos (lat * π / 180) * sin (lon * π / 180),
    sin (lat * π / 180)]

theorem direction_inner (lat1 lon1 lat2 lon2 : ℝ) :
    inner ℝ (direction lat1 lon1) (direction lat2 lon2) = 1 - 2 * haversine lon1 lat1 lon2 lat2 := by
  have e : ∀ x : ℝ, x * π / 180 = x * (π / 180) := fun x => by ring
  have h2 : ∀ x : ℝ, sin (x / 2) ^ 2 = (1 - cos x) / 2 := fun x => by
    have := cos_sq' (x / 2)
    have h := cos_sq (x / 2)
    have e : 2 * (x / 2) = x := by ring
    rw [e] at h
    linarith
  simp only [direction, haversine, deg2rad, PiLp.inner_apply, Fin.sum_univ_three, e, h2, cos_sub]
  simp
  ring

theorem direction_norm (lat lon : ℝ) : ‖direction lat lon‖ = 1 := by
  have h : ‖direction lat lon‖ ^ 2 = 1 := by
    rw [← real_inner_self_eq_norm_sq, direction_inner]
    simp [haversine]
  nlinarith [norm_nonneg (direction lat lon), sq_nonneg (‖direction lat lon‖ - 1)]

theorem direction_ne (lat lon : ℝ) : direction lat lon ≠ 0 := by
  intro h
  have := direction_norm lat lon
  rw [h, norm_zero] at this
  norm_num at this

theorem haversine_range (lon1 lat1 lon2 lat2 : ℝ) :
    0 ≤ haversine lon1 lat1 lon2 lat2 ∧ haversine lon1 lat1 lon2 lat2 ≤ 1 := by
  have h := abs_real_inner_le_norm (direction lat1 lon1) (direction lat2 lon2)
  rw [direction_norm, direction_norm, direction_inner, abs_le] at h
  constructor <;> linarith [h.1, h.2]

theorem two_arctan2_sqrt (a : ℝ) (h0 : 0 ≤ a) (h1 : a ≤ 1) :
    2 * arctan2 (sqrt a) (sqrt (1 - a)) = arccos (1 - 2 * a) := by
  set φ := arctan2 (sqrt a) (sqrt (1 - a)) with hφ
  have hre : 0 ≤ sqrt (1 - a) := sqrt_nonneg _
  have him : 0 ≤ sqrt a := sqrt_nonneg _
  have hn : ‖(⟨sqrt (1 - a), sqrt a⟩ : ℂ)‖ = 1 := by
    rw [Complex.norm_def, Complex.normSq_mk, mul_self_sqrt (by linarith), mul_self_sqrt h0]
    norm_num
  have hne : (⟨sqrt (1 - a), sqrt a⟩ : ℂ) ≠ 0 := by
    intro h; rw [h, norm_zero] at hn; norm_num at hn
  have hpos : 0 ≤ φ := by
    rw [hφ]; exact Complex.arg_nonneg_iff.2 him
  have hhalf : φ ≤ π / 2 := by
    have := (Complex.abs_arg_le_pi_div_two_iff (z := ⟨sqrt (1 - a), sqrt a⟩)).2 hre
    exact (le_abs_self _).trans this
  have hs : sin φ = sqrt a := by
    rw [hφ, arctan2, Complex.sin_arg, hn]; simp
  have hc : cos (2 * φ) = 1 - 2 * a := by
    rw [cos_two_mul, cos_sq', hs, sq_sqrt h0]; ring
  rw [← hc, arccos_cos (by linarith) (by linarith)]

/-- **C34** `gc_dist` is never NaN and equals the radius times the angle between the two
directions, for all coordinates. -/
theorem C34_gc_dist_eq_angle (lon1 lat1 lon2 lat2 rp : ℝ) :
    gcDist lon1 lat1 lon2 lat2 rp =
      some (rp * angle (direction lat1 lon1) (direction lat2 lon2)) := by
  obtain ⟨h0, h1⟩ := haversine_range lon1 lat1 lon2 lat2
  have e1 : npSqrt (haversine lon1 lat1 lon2 lat2) = some (sqrt (haversine lon1 lat1 lon2 lat2)) := by
    rw [npSqrt, if_neg (not_lt.2 h0)]
  have e2 : npSqrt (1 - haversine lon1 lat1 lon2 lat2) =
      some (sqrt (1 - haversine lon1 lat1 lon2 lat2)) := by
    rw [npSqrt, if_neg (not_lt.2 (by linarith))]
  unfold gcDist
  simp only [e1, e2]
  rw [two_arctan2_sqrt _ h0 h1, angle, direction_inner, direction_norm, direction_norm]
  norm_num

/-- **C34** symmetric. -/
theorem C34_symmetric (lon1 lat1 lon2 lat2 rp : ℝ) :
    gcDist lon1 lat1 lon2 lat2 rp = gcDist lon2 lat2 lon1 lat1 rp := by
  rw [C34_gc_dist_eq_angle, C34_gc_dist_eq_angle, angle_comm]

/-- **C34** between 0 and half the circumference. -/
theorem C34_range (lon1 lat1 lon2 lat2 rp d : ℝ) (hr : 0 ≤ rp)
    (h : gcDist lon1 lat1 lon2 lat2 rp = some d) : 0 ≤ d ∧ d ≤ π * rp := by
  rw [C34_gc_dist_eq_angle, Option.some.injEq] at h
  subst h
  refine ⟨mul_nonneg hr (angle_nonneg _ _), ?_⟩
  rw [mul_comm π]
  exact mul_le_mul_of_nonneg_left (angle_le_pi _ _) hr

/-- **C34** zero exactly for the same direction (in particular for identical points). -/
theorem C34_zero_iff (lon1 lat1 lon2 lat2 rp : ℝ) (hr : 0 < rp) :
    gcDist lon1 lat1 lon2 lat2 rp = some 0 ↔ direction lat1 lon1 = direction lat2 lon2 := by
  rw [C34_gc_dist_eq_angle, Option.some.injEq, mul_eq_zero, or_iff_right hr.ne', angle_eq_zero_iff]
  constructor
  · rintro ⟨-, r, hr, h⟩
    have hn := congrArg norm h
    rw [norm_smul, direction_norm, direction_norm, norm_eq_abs, abs_of_pos hr, mul_one] at hn
    rw [h, ← hn, one_smul]
  · intro h
    exact ⟨direction_ne _ _, 1, one_pos, by rw [h, one_smul]⟩

theorem C34_zero_self (lon lat rp : ℝ) : gcDist lon lat lon lat rp = some 0 := by
  rw [C34_gc_dist_eq_angle, angle_self (direction_ne _ _), mul_zero]

/-- **C34** adding whole turns to either longitude changes nothing. -/
theorem C34_periodic (lon1 lat1 lon2 lat2 rp : ℝ) (m n : ℤ) :
    gcDist (lon1 + 360 * m) lat1 (lon2 + 360 * n) lat2 rp = gcDist lon1 lat1 lon2 lat2 rp := by
  have e : ∀ (lat lon : ℝ) (k : ℤ), direction lat (lon + 360 * k) = direction lat lon := by
    intro lat lon k
    have e1 : (lon + 360 * k) * π / 180 = lon * π / 180 + k * (2 * π) := by ring
    simp only [direction, e1, cos_add_int_mul_two_pi, sin_add_int_mul_two_pi]
  rw [C34_gc_dist_eq_angle, C34_gc_dist_eq_angle, e, e]

/-- **C34** rotating both longitudes changes nothing. -/
theorem C34_rotation (lon1 lat1 lon2 lat2 rp t : ℝ) :
    gcDist (lon1 + t) lat1 (lon2 + t) lat2 rp = gcDist lon1 lat1 lon2 lat2 rp := by
  have e : haversine (lon1 + t) lat1 (lon2 + t) lat2 = haversine lon1 lat1 lon2 lat2 := by
    unfold haversine deg2rad
    have : (lon2 + t) * (π / 180) - (lon1 + t) * (π / 180) =
      lon2 * (π / 180) - lon1 * (π / 180) := by ring
    simp only [this]
  unfold gcDist
  rw [e]

/-- **C34** triangle inequality. -/
theorem C34_triangle (lon1 lat1 lon2 lat2 lon3 lat3 rp d12 d23 d13 : ℝ) (hr : 0 ≤ rp)
    (h12 : gcDist lon1 lat1 lon2 lat2 rp = some d12)
    (h23 : gcDist lon2 lat2 lon3 lat3 rp = some d23)
    (h13 : gcDist lon1 lat1 lon3 lat3 rp = some d13) : d13 ≤ d12 + d23 := by
  rw [C34_gc_dist_eq_angle, Option.some.injEq] at h12 h23 h13
  rw [← h12, ← h23, ← h13, ← mul_add]
  exact mul_le_mul_of_nonneg_left (angle_le_angle_add_angle _ _ _) hr

/-- From the south pole to the equator is a quarter of the circumference. -/
example : gcDist 0 (-90) 123 0 1737400 = some (1737400 * (π / 2)) := by
  rw [C34_gc_dist_eq_angle, angle, direction_inner, direction_norm, direction_norm]
  have h : haversine 0 (-90) 123 0 = 1 / 2 := by
    unfold haversine deg2rad
    have e1 : (0 * (π / 180) - -(π / 2)) / 2 = π / 4 := by ring
    have e2 : (-90 : ℝ) * (π / 180) = -(π / 2) := by ring
    simp only [e2, cos_neg, cos_pi_div_two]
    rw [e1, sin_pi_div_four]
    rw [div_pow, sq_sqrt (by norm_num)]
    norm_num
  rw [h]
  norm_num

theorem deg_rad (x : ℝ) : rad2deg (deg2rad x) = x := by
  unfold rad2deg deg2rad
  have := pi_ne_zero
  field_simp

theorem rad_deg (x : ℝ) : deg2rad (rad2deg x) = x := by
  unfold rad2deg deg2rad
  have := pi_ne_zero
  field_simp

theorem xy_z (lat lon rp : ℝ) :
    rp ^ 2 - (latlon2xy lat lon rp).1 ^ 2 - (latlon2xy lat lon rp).2 ^ 2 =
      (rp * sin (deg2rad lat)) ^ 2 := by
  unfold latlon2xy
  simp only []
  have h1 := sin_sq_add_cos_sq (deg2rad lat)
  have h2 := sin_sq_add_cos_sq (deg2rad lon)
  linear_combination (-rp ^ 2 * cos (deg2rad lat) ^ 2) * h2 + (-rp ^ 2) * h1

theorem xy_lat (lat lon rp : ℝ) (hr : 0 < rp) :
    (xy2latlon (latlon2xy lat lon rp).1 (latlon2xy lat lon rp).2 rp).1 =
      some (rad2deg (-arcsin |sin (deg2rad lat)|)) := by
  unfold xy2latlon
  simp only []
  rw [xy_z, npSqrt, if_neg (not_lt.2 (sq_nonneg _)), sqrt_sq_eq_abs, abs_mul, abs_of_pos hr]
  simp [hr.ne']

theorem xy_lon (lat lon rp : ℝ) (hr : 0 < rp) (h1 : -90 < lat) (h2 : lat < 90)
    (h3 : -180 < lon) (h4 : lon ≤ 180) :
    (xy2latlon (latlon2xy lat lon rp).1 (latlon2xy lat lon rp).2 rp).2 = lon := by
  have hp := pi_pos
  have hc : 0 < cos (deg2rad lat) := by
    apply cos_pos_of_mem_Ioo
    unfold deg2rad
    constructor <;> nlinarith
  have e : arctan2 (latlon2xy lat lon rp).1 (latlon2xy lat lon rp).2 = deg2rad lon := by
    have h : (⟨(latlon2xy lat lon rp).2, (latlon2xy lat lon rp).1⟩ : ℂ) =
        ((rp * cos (deg2rad lat) : ℝ) : ℂ) *
          (Complex.cos (deg2rad lon : ℝ) + Complex.sin (deg2rad lon : ℝ) * Complex.I) := by
      rw [← Complex.ofReal_cos, ← Complex.ofReal_sin]
      apply Complex.ext <;> simp [latlon2xy, ← Complex.ofReal_cos, ← Complex.ofReal_sin,
        -Complex.ofReal_cos, -Complex.ofReal_sin]
    unfold arctan2
    rw [h, Complex.arg_mul_cos_add_sin_mul_I (mul_pos hr hc)]
    unfold deg2rad
    constructor <;> nlinarith
  unfold xy2latlon
  simp only []
  rw [e, deg_rad]

/-- **C35** `xy2latlon ∘ latlon2xy` is the identity on the southern hemisphere. -/
theorem C35_latlon_round_trip (lat lon rp : ℝ) (hr : 0 < rp) (h1 : -90 < lat) (h2 : lat ≤ 0)
    (h3 : -180 < lon) (h4 : lon ≤ 180) :
    xy2latlon (latlon2xy lat lon rp).1 (latlon2xy lat lon rp).2 rp = (some lat, lon) := by
  have hp := pi_pos
  refine Prod.ext ?_ (xy_lon lat lon rp hr h1 (by linarith) h3 h4)
  have hb1 : -(π / 2) ≤ deg2rad lat := by unfold deg2rad; nlinarith
  have hb2 : deg2rad lat ≤ 0 := by unfold deg2rad; nlinarith
  have hs : sin (deg2rad lat) ≤ 0 := sin_nonpos_of_nonpos_of_neg_pi_le hb2 (by linarith)
  rw [xy_lat lat lon rp hr, abs_of_nonpos hs, arcsin_neg, neg_neg, arcsin_sin hb1 (by linarith),
    deg_rad]

/-- **C35** at the south pole itself the latitude is recovered (the longitude is lost). -/
theorem C35_south_pole (lon rp : ℝ) (hr : 0 < rp) :
    (xy2latlon (latlon2xy (-90) lon rp).1 (latlon2xy (-90) lon rp).2 rp).1 = some (-90) := by
  have e : deg2rad (-90) = -(π / 2) := by unfold deg2rad; ring
  rw [xy_lat _ _ _ hr, e, sin_neg, sin_pi_div_two, abs_neg, abs_one, arcsin_one, ← e, deg_rad]

/-- **C35** northern latitudes come back mirrored, so the map is for the south only. -/
theorem C35_north_mirrored (lat lon rp : ℝ) (hr : 0 < rp) (h1 : 0 ≤ lat) (h2 : lat < 90)
    (h3 : -180 < lon) (h4 : lon ≤ 180) :
    xy2latlon (latlon2xy lat lon rp).1 (latlon2xy lat lon rp).2 rp = (some (-lat), lon) := by
  have hp := pi_pos
  refine Prod.ext ?_ (xy_lon lat lon rp hr (by linarith) h2 h3 h4)
  have hb1 : 0 ≤ deg2rad lat := by unfold deg2rad; positivity
  have hb2 : deg2rad lat ≤ π / 2 := by unfold deg2rad; nlinarith
  have hs : 0 ≤ sin (deg2rad lat) := sin_nonneg_of_nonneg_of_le_pi hb1 (by linarith)
  have e : -deg2rad lat = deg2rad (-lat) := by unfold deg2rad; ring
  rw [xy_lat lat lon rp hr, abs_of_nonneg hs, arcsin_sin (by linarith) hb2, e, deg_rad]

/-- **C35** `latlon2xy ∘ xy2latlon` is the identity on the disk. -/
theorem C35_xy_round_trip (x y rp : ℝ) (hr : 0 < rp) (h : x ^ 2 + y ^ 2 ≤ rp ^ 2) :
    ∃ lat, (xy2latlon x y rp).1 = some lat ∧ latlon2xy lat (xy2latlon x y rp).2 rp = (x, y) := by
  unfold xy2latlon
  simp only []
  have hz : ¬ rp ^ 2 - x ^ 2 - y ^ 2 < 0 := by linarith
  rw [npSqrt, if_neg hz]
  refine ⟨_, rfl, ?_⟩
  unfold latlon2xy
  simp only [rad_deg, cos_neg, cos_arcsin]
  have hn : rp * sqrt (1 - (sqrt (rp ^ 2 - x ^ 2 - y ^ 2) / rp) ^ 2) = ‖(⟨y, x⟩ : ℂ)‖ := by
    rw [div_pow, sq_sqrt (by linarith), Complex.norm_def, Complex.normSq_mk]
    have e1 : 1 - (rp ^ 2 - x ^ 2 - y ^ 2) / rp ^ 2 = (x ^ 2 + y ^ 2) / rp ^ 2 := by
      field_simp; ring
    rw [e1, sqrt_div (by positivity), sqrt_sq hr.le, mul_div_cancel₀ _ hr.ne']
    congr 1; ring
  rw [hn]
  unfold arctan2
  rw [Complex.norm_mul_sin_arg, Complex.norm_mul_cos_arg]

/-- **C35** points off the disk have no latitude. -/
theorem C35_off_disk (x y rp : ℝ) (h : rp ^ 2 < x ^ 2 + y ^ 2) : (xy2latlon x y rp).1 = none := by
  unfold xy2latlon npSqrt
  rw [if_pos (by linarith)]
  rfl

example : xy2latlon (latlon2xy (-80) 30 1737400).1 (latlon2xy (-80) 30 1737400).2 1737400 =
    (some (-80), 30) :=
  C35_latlon_round_trip _ _ _ (by norm_num) (by norm_num) (by norm_num) (by norm_num) (by norm_num)

end MoonPIES
