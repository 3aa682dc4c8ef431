import Verif.Model.EjectaFig
import Verif.Props.EjectaThick
import Verif.Props.Mixing
import Verif.Props.AgesToTime
import Verif.Props.Rounding
import Verif.Props.Bsed
import Verif.Lemmas.Linspace
import Mathlib.Analysis.Convex.SpecificFunctions.Deriv

/-!
# C92: the figure of ejecta against distance
-/

namespace MoonPIES

open Real

/-! ## Speed and energy on the sphere -/

theorem sin_chord (x y : ℝ) (hx : 0 < x) (hxy : x < y) (hy : y ≤ 1) : sin y * x < sin x * y := by
  have hpi := pi_gt_three
  have hy0 : 0 < y := by linarith
  have hc := strictConcaveOn_sin_Icc.2 (Set.mem_Icc.2 ⟨le_refl 0, by linarith⟩ : (0 : ℝ) ∈ Set.Icc 0 π)
    (Set.mem_Icc.2 ⟨by linarith, by linarith⟩ : y ∈ Set.Icc 0 π) (by linarith)
    (by rw [sub_pos, div_lt_one hy0]; exact hxy : 0 < 1 - x / y) (by positivity : 0 < x / y) (by ring)
  have e : (1 - x / y) • (0 : ℝ) + (x / y) • y = x := by
    simp only [smul_eq_mul, mul_zero, zero_add]
    rw [div_mul_cancel₀ _ (by linarith : y ≠ 0)]
  rw [e] at hc
  simp only [sin_zero, smul_eq_mul, mul_zero, zero_add] at hc
  have := mul_lt_mul_of_pos_right hc hy0
  have e2 : x / y * sin y * y = sin y * x := by field_simp
  linarith

theorem cos_chord (x y : ℝ) (hx : 0 < x) (hxy : x < y) (hy : y ≤ 1) :
    x ^ 2 * cos x < y ^ 2 * cos y := by
  have hpi := pi_gt_three
  have h1 : cos x - cos y ≤ (y ^ 2 - x ^ 2) / 2 := by
    rw [cos_sub_cos]
    have e : (x - y) / 2 = -((y - x) / 2) := by ring
    rw [e, sin_neg]
    have a := sin_le (x := (x + y) / 2) (by linarith)
    have b := sin_le (x := (y - x) / 2) (by linarith)
    have a0 : 0 ≤ sin ((x + y) / 2) := sin_nonneg_of_nonneg_of_le_pi (by linarith) (by linarith)
    have b0 : 0 ≤ sin ((y - x) / 2) := sin_nonneg_of_nonneg_of_le_pi (by linarith) (by linarith)
    have := mul_le_mul a b b0 (by linarith)
    nlinarith
  have h2 : 1 - y ^ 2 / 2 ≤ cos y := one_sub_sq_div_two_le_cos
  have h3 : x ^ 2 < y ^ 2 := by nlinarith
  have h4 : y ^ 2 ≤ 1 := by nlinarith
  have h5 : 0 < cos y - x ^ 2 / 2 := by nlinarith
  have := mul_pos (sub_pos.2 h3) h5
  nlinarith [mul_le_mul_of_nonneg_left h1 (sq_nonneg x)]

theorem tan_cube (x y : ℝ) (hx : 0 < x) (hxy : x < y) (hy : y ≤ 1) :
    tan y * x ^ 3 < tan x * y ^ 3 := by
  have hpi := pi_gt_three
  have cy : 0 < cos y := cos_pos_of_mem_Ioo ⟨by linarith, by linarith⟩
  have cx : 0 < cos x := cos_pos_of_mem_Ioo ⟨by linarith, by linarith⟩
  have sx : 0 < sin x := sin_pos_of_pos_of_lt_pi hx (by linarith)
  have sy : 0 < sin y := sin_pos_of_pos_of_lt_pi (by linarith) (by linarith)
  rw [tan_eq_sin_div_cos, tan_eq_sin_div_cos, div_mul_eq_mul_div, div_mul_eq_mul_div,
    div_lt_div_iff₀ cy cx]
  have h1 := sin_chord x y hx hxy hy
  have h2 := cos_chord x y hx hxy hy
  have hy0 : 0 < y := by linarith
  have := mul_lt_mul h1 h2.le (by positivity) (by positivity)
  nlinarith

/-- The square of the speed grows more slowly than the cube of the distance. -/
theorem speed_cube (d1 d2 g rp angle v1 v2 : ℝ) (hg : 0 < g) (hr : 0 < rp) (ha0 : 0 < angle)
    (ha1 : angle < 90) (h0 : 0 < d1) (h12 : d1 < d2) (h2 : d2 ≤ 2 * rp)
    (e1 : ballisticVelocity d1 g rp angle = .fin v1)
    (e2 : ballisticVelocity d2 g rp angle = .fin v2) : v2 ^ 2 * d1 ^ 3 < v1 ^ 2 * d2 ^ 3 := by
  have hpi := pi_gt_three
  obtain ⟨hs, hc⟩ := angle_trig angle ha0 ha1
  have hp1 : 0 < d1 / (2 * rp) := by positivity
  have hp12 : d1 / (2 * rp) < d2 / (2 * rp) := div_lt_div_of_pos_right h12 (by positivity)
  have hp2 : d2 / (2 * rp) ≤ 1 := by rw [div_le_one (by positivity)]; exact h2
  have ht1 : 0 < tan (d1 / (2 * rp)) := tan_pos_of_pos_of_lt_pi_div_two hp1 (by linarith)
  have ht : tan (d1 / (2 * rp)) < tan (d2 / (2 * rp)) :=
    tan_lt_tan_of_nonneg_of_lt_pi_div_two hp1.le (by linarith) hp12
  have key := tan_cube _ _ hp1 hp12 hp2
  have hlt : d2 < π * rp := by nlinarith
  rw [ballistic_fin d1 g rp angle hg hr ha0 ha1 h0.le (by linarith), Flt.fin.injEq] at e1
  rw [ballistic_fin d2 g rp angle hg hr ha0 ha1 (by linarith) hlt, Flt.fin.injEq] at e2
  rw [div_pow, div_pow, mul_div_assoc', mul_div_assoc', div_lt_div_iff_of_pos_right (by positivity)] at key
  rw [← e1, ← e2]
  generalize tan (d1 / (2 * rp)) = s at *
  generalize tan (d2 / (2 * rp)) = t at *
  have ht' : 0 < t := by linarith
  rw [sq_sqrt (by positivity), sq_sqrt (by positivity)]
  generalize hA : sin (deg2rad angle) * cos (deg2rad angle) = A
  generalize hB : cos (deg2rad angle) ^ 2 = B
  have hA0 : 0 < A := by rw [← hA]; positivity
  have hB0 : 0 < B := by rw [← hB]; positivity
  rw [div_mul_eq_mul_div, div_mul_eq_mul_div, div_lt_div_iff₀ (by positivity) (by positivity)]
  have h3 : t * d1 ^ 3 * (A + B * s) < s * d2 ^ 3 * (A + B * t) := by
    have a1 : A + B * s ≤ A + B * t := by nlinarith
    have b1 : 0 < A + B * s := by positivity
    have b2 : 0 < t * d1 ^ 3 := by positivity
    calc t * d1 ^ 3 * (A + B * s) < s * d2 ^ 3 * (A + B * s) := mul_lt_mul_of_pos_right key b1
      _ ≤ s * d2 ^ 3 * (A + B * t) := mul_le_mul_of_nonneg_left a1 (by linarith)
  have := mul_lt_mul_of_pos_left h3 (mul_pos hg hr)
  nlinarith

/-- Thickness of simple and complex craters is a constant times a power of the distance. -/
theorem thick_power (cfg : EjCfg) (r : ℝ) (hr : 0 < r)
    (hc : cfg.simple2complex ≤ cfg.complex2peakring) (hb : r ≠ cfg.simple2complex / 2)
    (hp : r < cfg.complex2peakring / 2) :
    ∃ k : ℝ, 0 < k ∧ ∀ d, 0 < d → ejThickness cfg (some d) r = .fin (k * (d / r) ^ cfg.ej_thickness_exp) := by
  rcases lt_or_gt_of_ne hb with h | h
  · exact ⟨0.04 * r, by positivity, fun d hd => thick_simple cfg d r hd hr h hc⟩
  · exact ⟨0.14 * r ^ (0.74 : ℝ), by positivity, fun d hd => thick_complex cfg d r hd hr h hp⟩

/-- **C92** the first three panels: at `x` radii from a simple or complex crater the curves show
a speed whose range on the sphere is that distance, a positive thickness, and the kinetic energy
per square metre, in MJ, of a layer of that thickness moving with that speed. -/
theorem C92_panels (c : EjFigCfg) (diam x : ℝ) (hd : 0 < diam) (hx : 0 < x)
    (hg : 0 < c.ej.grav_moon) (hr : 0 < c.ej.rad_moon) (ha0 : 0 < c.ej.impact_angle)
    (ha1 : c.ej.impact_angle < 90) (hfar : diam / 2 * x < π * c.ej.rad_moon)
    (hc : c.ej.simple2complex ≤ c.ej.complex2peakring) (hb : diam ≠ c.ej.simple2complex)
    (hp : diam < c.ej.complex2peakring) :
    ∃ v t k, (ejFigPoint c diam x).vel = .fin v ∧ (ejFigPoint c diam x).thick = .fin t ∧
      (ejFigPoint c diam x).ke = .fin k ∧ 0 < v ∧ 0 < t ∧
      tan (diam / 2 * x / (2 * c.ej.rad_moon)) *
          (c.ej.grav_moon * c.ej.rad_moon - v ^ 2 * cos (c.ej.impact_angle * π / 180) ^ 2) =
        v ^ 2 * (sin (c.ej.impact_angle * π / 180) * cos (c.ej.impact_angle * π / 180)) ∧
      ejThickness c.ej (some (diam / 2 * x)) (diam / 2) = .fin t ∧
      1000000 * k = t * c.bulk_density * v ^ 2 / 2 := by
  have hd0 : 0 < diam / 2 * x := by positivity
  obtain ⟨v, hv, hv0, -⟩ := C52_bound (diam / 2 * x) _ _ _ hg hr ha0 ha1 hd0 hfar
  obtain ⟨t, ht, ht0⟩ := C36_positive_partial c.ej (diam / 2 * x) (diam / 2) hd0 (by linarith) hc
    (fun h => hb (by linarith)) (by linarith)
  have hf := C52_flight_equation _ _ _ _ v hg hr ha0 ha1 hd0.le hfar hv
  refine ⟨v, t, 1 / 1e6 * (0.5 * (c.bulk_density * t) * (v * v)), hv, ht, ?_, hv0, ht0, hf, ht, ?_⟩
  · unfold ejFigPoint
    simp only [ht, hv, Flt.smul, kineticEnergy, Flt.mul]
  · norm_num; ring

/-- **C92** at the centre of a simple or complex crater the thickness is infinite and the speed zero, so there is no
energy (NaN); the figure starts at one radius. -/
theorem C92_centre (c : EjFigCfg) (diam : ℝ) (hd : 0 < diam) (ha0 : 0 < c.ej.impact_angle)
    (ha1 : c.ej.impact_angle < 90)
    (hb : diam ≠ c.ej.simple2complex) (hp : diam < c.ej.complex2peakring) (he : c.ej.ej_thickness_exp < 0)
    (hrho : c.bulk_density ≠ 0) :
    (ejFigPoint c diam 0).vel = .fin 0 ∧ (ejFigPoint c diam 0).thick = .inf ∧ (ejFigPoint c diam 0).ke = .nan := by
  have hr : diam / 2 ≠ 0 := by linarith
  have hpow : npPow (0 / (diam / 2)) c.ej.ej_thickness_exp = .inf := by
    unfold npPow
    rw [zero_div, if_neg (lt_irrefl _), if_pos ⟨rfl, he⟩]
  have ht : ejThickness c.ej (some 0) (diam / 2) = .inf := by
    unfold ejThickness
    simp only []
    rw [if_neg (show ¬ c.ej.complex2peakring / 2 ≤ diam / 2 by linarith)]
    rcases lt_or_gt_of_ne hb with h | h
    · rw [if_neg (show ¬ (c.ej.simple2complex / 2 < diam / 2 ∧ diam / 2 < c.ej.complex2peakring / 2) from
        fun h' => by linarith [h'.1]), if_pos (show diam / 2 < c.ej.simple2complex / 2 by linarith)]
      unfold ejThickSimple
      rw [if_neg hr, hpow]
      simp only [Flt.smul]
      rw [if_neg (by positivity)]
      rfl
    · rw [if_pos (show c.ej.simple2complex / 2 < diam / 2 ∧ diam / 2 < c.ej.complex2peakring / 2 from
        ⟨by linarith, by linarith⟩)]
      unfold ejThickComplex
      rw [if_neg hr, hpow]
      have : npPow (diam / 2) 0.74 = .fin ((diam / 2) ^ (0.74 : ℝ)) := by
        unfold npPow
        rw [if_neg (by linarith), if_neg (fun h' => hr h'.1)]
      rw [this]
      simp only [Flt.smul, Flt.mul]
      rw [if_neg (by positivity)]
      rfl
  have hv : ballisticVelocity 0 c.ej.grav_moon c.ej.rad_moon c.ej.impact_angle = .fin 0 := by
    unfold ballisticVelocity
    simp only [zero_div, Real.tan_zero, mul_zero, add_zero]
    have hpi := Real.pi_pos
    have h1 : 0 < Real.sin (deg2rad c.ej.impact_angle) := by
      apply Real.sin_pos_of_pos_of_lt_pi
      · unfold deg2rad; positivity
      · unfold deg2rad; nlinarith
    have h2 : 0 < Real.cos (deg2rad c.ej.impact_angle) := by
      apply Real.cos_pos_of_mem_Ioo
      constructor
      · unfold deg2rad
        have : 0 < c.ej.impact_angle * (π / 180) := by positivity
        linarith
      · unfold deg2rad; nlinarith
    unfold npDiv
    rw [if_neg (mul_pos h1 h2).ne', zero_div]
    simp [Flt.sqrt]
  unfold ejFigPoint
  simp only [mul_zero, ht, hv]
  refine ⟨trivial, trivial, ?_⟩
  simp only [Flt.smul, if_neg hrho, kineticEnergy, Flt.mul]
  norm_num

/-- **C92** with the thickness falling at least as the cube of the distance, the energy of the
ejecta falls with the distance, out to a Moon's diameter. -/
theorem C92_energy_falls (c : EjFigCfg) (diam x y kx ky : ℝ) (hd : 0 < diam) (hx : 0 < x) (hxy : x < y)
    (hg : 0 < c.ej.grav_moon) (hr : 0 < c.ej.rad_moon) (ha0 : 0 < c.ej.impact_angle)
    (ha1 : c.ej.impact_angle < 90) (hfar : diam / 2 * y ≤ 2 * c.ej.rad_moon)
    (hc : c.ej.simple2complex ≤ c.ej.complex2peakring) (hb : diam ≠ c.ej.simple2complex)
    (hp : diam < c.ej.complex2peakring) (he : c.ej.ej_thickness_exp ≤ -3) (hrho : 0 < c.bulk_density)
    (e1 : (ejFigPoint c diam x).ke = .fin kx) (e2 : (ejFigPoint c diam y).ke = .fin ky) :
    ky < kx := by
  have hpi := pi_gt_three
  have hy : 0 < y := hx.trans hxy
  have hfar' : diam / 2 * y < π * c.ej.rad_moon := by nlinarith
  have hlt : diam / 2 * x < diam / 2 * y := mul_lt_mul_of_pos_left hxy (by linarith)
  obtain ⟨v, t, k, hv, -, hk, hv0, ht0, -, hte, hke⟩ :=
    C92_panels c diam x hd hx hg hr ha0 ha1 (by linarith) hc hb hp
  obtain ⟨v', t', k', hv', -, hk', hv0', ht0', -, hte', hke'⟩ :=
    C92_panels c diam y hd hy hg hr ha0 ha1 hfar' hc hb hp
  rw [hk, Flt.fin.injEq] at e1
  rw [hk', Flt.fin.injEq] at e2
  subst e1 e2
  have hsp := speed_cube _ _ _ _ _ v v' hg hr ha0 ha1 (by positivity) hlt hfar hv hv'
  obtain ⟨q, hq, hth⟩ := thick_power c.ej (diam / 2) (by linarith) hc (fun h => hb (by linarith))
    (by linarith)
  rw [hth _ (by positivity), Flt.fin.injEq] at hte hte'
  have ex : diam / 2 * x / (diam / 2) = x := by field_simp
  have ey : diam / 2 * y / (diam / 2) = y := by field_simp
  rw [ex] at hte
  rw [ey] at hte'
  have hsp' : v' ^ 2 * x ^ 3 < v ^ 2 * y ^ 3 := by
    rw [mul_pow, mul_pow] at hsp
    have h3 : 0 < (diam / 2) ^ 3 := by positivity
    have : (v' ^ 2 * x ^ 3) * (diam / 2) ^ 3 < (v ^ 2 * y ^ 3) * (diam / 2) ^ 3 := by nlinarith
    exact lt_of_mul_lt_mul_right this h3.le
  have hpow : y ^ c.ej.ej_thickness_exp * y ^ 3 ≤ x ^ c.ej.ej_thickness_exp * x ^ 3 := by
    rw [← rpow_natCast y 3, ← rpow_natCast x 3, ← rpow_add hy, ← rpow_add hx]
    exact rpow_le_rpow_of_nonpos hx hxy.le (by push_cast; linarith)
  have hpx : 0 < x ^ c.ej.ej_thickness_exp := rpow_pos_of_pos hx _
  have hpy : 0 < y ^ c.ej.ej_thickness_exp := rpow_pos_of_pos hy _
  have hmul : (y ^ c.ej.ej_thickness_exp * v' ^ 2) * (x ^ 3 * y ^ 3) <
      (x ^ c.ej.ej_thickness_exp * v ^ 2) * (x ^ 3 * y ^ 3) := by
    have a : y ^ c.ej.ej_thickness_exp * y ^ 3 * (v' ^ 2 * x ^ 3) <
        y ^ c.ej.ej_thickness_exp * y ^ 3 * (v ^ 2 * y ^ 3) :=
      mul_lt_mul_of_pos_left hsp' (by positivity)
    have b := mul_le_mul_of_nonneg_right hpow (by positivity : 0 ≤ v ^ 2 * y ^ 3)
    linarith
  have hfin := lt_of_mul_lt_mul_right hmul (by positivity)
  have h2 : q * c.bulk_density * (y ^ c.ej.ej_thickness_exp * v' ^ 2) <
      q * c.bulk_density * (x ^ c.ej.ej_thickness_exp * v ^ 2) :=
    mul_lt_mul_of_pos_left hfin (by positivity)
  rw [← hte] at hke
  rw [← hte'] at hke'
  linarith

/-! ## Sedimentation depth -/

/-- Depth to which a run mixes the ground below one impact's ejecta, of thickness `t` and with
mixing ratio `m`. -/
theorem one_impact (bc : BsedCfg ℝ) (age t m f : ℝ) (hm : 0 ≤ m) (hrt : 0 ≤ bc.rtol) :
    ∃ melt, bsedColumn bc [age] [age] [t] [some m] [some f] = .ok ([t * m], melt) := by
  have h0 : 0 ≤ rtolOf bc.rtol age := by unfold rtolOf; positivity
  have hin : (decide (age - rtolOf bc.rtol age ≤ age) && decide (age ≤ age + rtolOf bc.rtol age)) = true := by
    rw [Bool.and_eq_true, decide_eq_true_iff, decide_eq_true_iff]
    constructor <;> linarith
  refine ⟨[max 0 f * bc.ballistic_sed_frac_lost], ?_⟩
  simp only [bsedColumn, ages2time, minmaxRtol, List.zip, List.zipWith, List.map, List.filter,
    List.foldl, bind, Except.bind, hin, timeIdx, argmin, argminFrom, placeAll, List.length,
    List.replicate, List.getElem?_cons_zero, List.set, nansum, nanmax, ge_iff_le, zero_add,
    max_eq_right hm]

/-- **C92** the fourth panel takes the mixing ratio at one diameter from the centre for the whole
curve.  So it shows the depth a run computes at two radii only: nearer to the crater it shows
more, farther out it shows less. -/
theorem C92_depth_partial (c : EjFigCfg) (bc : BsedCfg ℝ) (age f diam x t : ℝ) (hd : 0 < diam) (hx : 0 < x)
    (ha : 0 < c.mixing_ratio_a) (hb : 0 < c.mixing_ratio_b) (hrt : 0 ≤ bc.rtol) (ht0 : 0 < t)
    (ht : (ejFigPoint c diam x).thick = .fin t) :
    ∃ shown run m melt, (ejFigPoint c diam x).depth = .fin shown ∧
      mixingRatio c.petro c.mixing_ratio_a c.mixing_ratio_b (some (diam / 2 * x)) = some m ∧
      bsedColumn bc [age] [age] [t] [some m] [some f] = .ok ([run], melt) ∧
      (x < 2 → run < shown) ∧ (x = 2 → run = shown) ∧ (2 < x → shown < run) := by
  have ht' : ejThickness c.ej (some (diam / 2 * x)) (diam / 2) = .fin t := ht
  have hshow : ∀ m', mixingRatio c.petro c.mixing_ratio_a c.mixing_ratio_b (some diam) = some m' →
      (ejFigPoint c diam x).depth = .fin (m' * t) := by
    intro m' hm'
    unfold ejFigPoint
    simp only [ht', hm', Flt.smul]
  rcases lt_trichotomy x 2 with h | h | h
  · obtain ⟨m, m', h1, h2, h3, h4⟩ := C49_increasing c.petro c.mixing_ratio_a c.mixing_ratio_b
      (diam / 2 * x) diam ha hb (by positivity) (by nlinarith)
    obtain ⟨melt, hr⟩ := one_impact bc age t m f h3 hrt
    refine ⟨_, _, m, melt, hshow m' h2, h1, hr, fun _ => ?_, fun e => absurd e h.ne,
      fun e => absurd e (by linarith)⟩
    nlinarith
  · subst h
    obtain ⟨m, -, h1, -, h3, -⟩ := C49_increasing c.petro c.mixing_ratio_a c.mixing_ratio_b
      diam (2 * diam) ha hb (by positivity) (by linarith)
    have e : diam / 2 * 2 = diam := by ring
    obtain ⟨melt, hr⟩ := one_impact bc age t m f h3 hrt
    exact ⟨_, _, m, melt, hshow m h1, by rw [e]; exact h1, hr, fun h => absurd h (lt_irrefl _),
      fun _ => mul_comm _ _, fun h => absurd h (lt_irrefl _)⟩
  · obtain ⟨m', m, h2, h1, h3, h4⟩ := C49_increasing c.petro c.mixing_ratio_a c.mixing_ratio_b
      diam (diam / 2 * x) ha hb hd.le (by nlinarith)
    obtain ⟨melt, hr⟩ := one_impact bc age t m f (by linarith) hrt
    refine ⟨_, _, m, melt, hshow m' h2, h1, hr, fun e => absurd e (by linarith),
      fun e => absurd e h.ne', fun _ => ?_⟩
    nlinarith

/-! ## The shipped figure -/

/-- The default configuration (config.py:135-155, 150, 181-183). -/
noncomputable def EjFigCfg.default : EjFigCfg :=
  { ej := EjCfg.default, bulk_density := 2700, petro := true, mixing_ratio_a := 0.0183,
    mixing_ratio_b := 0.87 }

/-- The planet of each crater: gravity and radius. -/
noncomputable def Spec.planet (crater : String) : ℝ × ℝ :=
  if crater = "Ries Basin" ∨ crater = "Meteor Crater" then (9.81, 6371000) else (1.62, 1737400)

theorem point_core (c : EjFigCfg) (diam x t : ℝ) (hd0 : 0 < diam / 2 * x)
    (hg : 0 < c.ej.grav_moon) (hr : 0 < c.ej.rad_moon) (ha : c.ej.impact_angle = 45)
    (hfar : diam / 2 * x < π * c.ej.rad_moon)
    (ht : ejThickness c.ej (some (diam / 2 * x)) (diam / 2) = .fin t) :
    ∃ v k, (ejFigPoint c diam x).vel = .fin v ∧ (ejFigPoint c diam x).thick = .fin t ∧
      (ejFigPoint c diam x).ke = .fin k ∧ 0 < v ∧ 1000000 * k = t * c.bulk_density * v ^ 2 / 2 ∧
      tan (diam / 2 * x / (2 * c.ej.rad_moon)) * (c.ej.grav_moon * c.ej.rad_moon - v ^ 2 / 2) =
        v ^ 2 / 2 := by
  obtain ⟨v, hv, hv0, -⟩ := C52_bound (diam / 2 * x) _ _ c.ej.impact_angle hg hr (by rw [ha]; norm_num)
    (by rw [ha]; norm_num) hd0 hfar
  have hf := C52_flight_equation _ _ _ c.ej.impact_angle v hg hr (by rw [ha]; norm_num) (by rw [ha]; norm_num)
    hd0.le hfar hv
  have e : c.ej.impact_angle * π / 180 = π / 4 := by rw [ha]; ring
  have hm : √2 / 2 * (√2 / 2) = 1 / 2 := by
    rw [div_mul_div_comm, mul_self_sqrt (by norm_num)]; norm_num
  rw [e, sin_pi_div_four, cos_pi_div_four, sq (√2 / 2), hm, ← div_eq_mul_one_div] at hf
  refine ⟨v, 1 / 1e6 * (0.5 * (c.bulk_density * t) * (v * v)), hv, ht, ?_, hv0, ?_, hf⟩
  · unfold ejFigPoint
    simp only [ht, hv, Flt.smul, kineticEnergy, Flt.mul]
  · norm_num; ring

/-- Diameters (m) of the craters of the figure. -/
noncomputable def Spec.figureCraters : List (String × ℝ) :=
  [("Orientale", 940000), ("Harpalus", 41600), ("Ries Basin", 24000), ("Shackleton", 20900), ("Mosting C", 4200),
    ("Meteor Crater", 1000)]

/-- **C92** the default figure: six curves from 1 to 5 radii with 100 points each.  Along the
five curves of craters that are no basins the speed grows while thickness and energy fall.  Speeds
follow the flight equation of the planet the crater is on, and only lunar craters have a curve in
the fourth panel. -/
theorem C92_shipped : ∃ curves, ejFigure EjFigCfg.default = .ok curves ∧
    curves.map (·.crater) = ["Orientale", "Harpalus", "Ries Basin", "Shackleton", "Mosting C", "Meteor Crater"] ∧
    ∀ cv ∈ curves, cv.points.length = 100 ∧ (cv.points.map (·.1))[0]? = some 1 ∧
      (cv.points.map (·.1))[99]? = some 5 ∧
      (cv.inDepthPanel = true ↔ cv.crater ≠ "Ries Basin" ∧ cv.crater ≠ "Meteor Crater") ∧
      (∀ p ∈ cv.points, ∃ v t k diam, (cv.crater, diam) ∈ Spec.figureCraters ∧ p.2.vel = .fin v ∧
        p.2.thick = .fin t ∧ p.2.ke = .fin k ∧ 0 < v ∧ 0 < t ∧ 1000000 * k = t * 2700 * v ^ 2 / 2 ∧
        tan (diam / 2 * p.1 / (2 * (Spec.planet cv.crater).2)) *
          ((Spec.planet cv.crater).1 * (Spec.planet cv.crater).2 - v ^ 2 / 2) = v ^ 2 / 2) ∧
      (cv.crater ≠ "Orientale" → cv.points.Pairwise (fun p q => p.1 < q.1 ∧
        ∃ v t k v' t' k', p.2.vel = .fin v ∧ p.2.thick = .fin t ∧ p.2.ke = .fin k ∧
          q.2.vel = .fin v' ∧ q.2.thick = .fin t' ∧ q.2.ke = .fin k' ∧ v < v' ∧ t' < t ∧ k' < k)) := by
  obtain ⟨xs, hxs⟩ : ∃ xs, linspace (1 : ℝ) 5 100 = .ok xs := ⟨_, linspace_eq 1 5 100 (by norm_num)⟩
  obtain ⟨hlen, -⟩ := linspace_get (1 : ℝ) 5 100 (by norm_num) xs hxs
  have hbd := linspace_bounds (1 : ℝ) 5 100 (by norm_num) (by norm_num) xs hxs
  have hasc := linspace_asc (1 : ℝ) 5 100 (by norm_num) (by norm_num) xs hxs
  obtain ⟨hfirst, hlast⟩ := linspace_last (1 : ℝ) 5 100 (by norm_num) xs hxs
  have hpi := pi_gt_three
  refine ⟨ejFigDiams.map (ejCurve EjFigCfg.default xs), ?_, ?_, ?_⟩
  · unfold ejFigure
    rw [hxs]; rfl
  · rfl
  intro cv hcv
  obtain ⟨⟨name, diam⟩, hmem, rfl⟩ := List.mem_map.1 hcv
  obtain ⟨ccfg, hcc⟩ : ∃ t, t = if isTerrestrial name then earthCfg EjFigCfg.default else EjFigCfg.default :=
    ⟨_, rfl⟩
  have hpts : (ejCurve EjFigCfg.default xs (name, diam)).points = xs.map (fun x => (x, ejFigPoint ccfg diam x)) := by
    rw [hcc]; rfl
  have hname : (ejCurve EjFigCfg.default xs (name, diam)).crater = name := rfl
  have hfst : (ejCurve EjFigCfg.default xs (name, diam)).points.map (·.1) = xs := by
    rw [hpts, List.map_map]; exact List.map_id xs
  have hplanet : Spec.planet name = (ccfg.ej.grav_moon, ccfg.ej.rad_moon) ∧ ccfg.bulk_density = 2700 ∧
      ccfg.ej.impact_angle = 45 ∧ ccfg.ej.simple2complex = 18000 ∧ ccfg.ej.complex2peakring = 140000 ∧
      ccfg.ej.ej_thickness_exp = -3 ∧ 0 < ccfg.ej.grav_moon ∧ 1737400 ≤ ccfg.ej.rad_moon := by
    rw [hcc]
    by_cases h : name = "Ries Basin" ∨ name = "Meteor Crater"
    · have : isTerrestrial name = true := by simpa [isTerrestrial] using h
      rw [if_pos this]
      unfold Spec.planet
      rw [if_pos h]
      norm_num [earthCfg, EjFigCfg.default, EjCfg.default]
    · have : isTerrestrial name = false := by
        simp only [isTerrestrial, Bool.or_eq_false_iff, decide_eq_false_iff_not]
        exact not_or.1 h
      rw [if_neg (by rw [this]; decide)]
      unfold Spec.planet
      rw [if_neg h]
      norm_num [EjFigCfg.default, EjCfg.default]
  obtain ⟨hpl, hrho, hang, hs2c, hc2p, hexp, hg, hrad⟩ := hplanet
  have hdiam : 0 < diam ∧ diam ≤ 940000 ∧ diam ≠ 18000 ∧ (name ≠ "Orientale" → diam < 140000) ∧
      (name = "Orientale" → diam = 940000 ∧ ccfg = EjFigCfg.default) := by
    simp only [ejFigDiams, List.mem_cons, Prod.mk.injEq, List.not_mem_nil, or_false] at hmem
    rcases hmem with ⟨rfl, rfl⟩ | ⟨rfl, rfl⟩ | ⟨rfl, rfl⟩ | ⟨rfl, rfl⟩ | ⟨rfl, rfl⟩ | ⟨rfl, rfl⟩
    · refine ⟨by norm_num, by norm_num, by norm_num, fun h => absurd rfl h, fun _ => ⟨by norm_num, ?_⟩⟩
      rw [hcc]; rfl
    all_goals
      refine ⟨by norm_num, by norm_num, by norm_num, fun _ => by norm_num, fun h => absurd h (by decide)⟩
  obtain ⟨hd0, hdmax, hne, hnb, hor⟩ := hdiam
  replace hmem : (name, diam) ∈ Spec.figureCraters := by
    have : ejFigDiams = Spec.figureCraters := by norm_num [ejFigDiams, Spec.figureCraters]
    rw [← this]; exact hmem
  have hthick : ∀ x ∈ xs, ∃ t, ejThickness ccfg.ej (some (diam / 2 * x)) (diam / 2) = .fin t ∧ 0 < t := by
    intro x hx
    obtain ⟨h1, h5⟩ := hbd x hx
    have hdx : 0 < diam / 2 * x := by positivity
    by_cases ho : name = "Orientale"
    · obtain ⟨rfl, rfl⟩ := hor ho
      have hR : final2transient 18e3 1.4e5 (940000 / 2 * 2) / 2 < 940000 / 2 := by
        have := croft_lt 940000 (by norm_num)
        have e : final2transient 18e3 1.4e5 (940000 / 2 * 2) = f2tCroft 940000 := by
          unfold final2transient
          simp only []
          rw [if_pos (by norm_num)]
          norm_num
        rw [e]; linarith
      refine C36_basin_positive_partial EjFigCfg.default.ej (940000 / 2 * x) (940000 / 2) _ (by norm_num)
        (by norm_num [EjFigCfg.default, EjCfg.default]) rfl ?_ ?_ ?_ ?_ ?_ ?_ ?_
      · show final2transient 18e3 1.4e5 (940000 / 2 * 2) / 2 ≤ 1737.4e3
        norm_num at hR ⊢; linarith
      · norm_num [EjFigCfg.default, EjCfg.default]
      · norm_num [EjFigCfg.default, EjCfg.default]
      · norm_num [EjFigCfg.default, EjCfg.default]
      · show final2transient 18e3 1.4e5 (940000 / 2 * 2) / 2 < 940000 / 2 * x
        linarith
      · show 940000 / 2 * x < π * 1737.4e3
        norm_num; nlinarith
      · nlinarith
    · exact C36_positive_partial ccfg.ej (diam / 2 * x) (diam / 2) hdx (by linarith)
        (by rw [hs2c, hc2p]; norm_num) (by rw [hs2c]; intro h; exact hne (by linarith))
        (by rw [hc2p]; have := hnb ho; linarith)
  have hfar : ∀ x ∈ xs, 0 < diam / 2 * x ∧ diam / 2 * x < π * ccfg.ej.rad_moon := by
    intro x hx
    obtain ⟨h1, h5⟩ := hbd x hx
    refine ⟨by positivity, ?_⟩
    nlinarith
  refine ⟨by rw [hpts, List.length_map, hlen], by rw [hfst]; exact hfirst, by rw [hfst]; exact hlast,
    ?_, ?_, ?_⟩
  · show (!isTerrestrial name) = true ↔ name ≠ "Ries Basin" ∧ name ≠ "Meteor Crater"
    simp [isTerrestrial]
  · rw [hpts, hname]
    intro p hp
    obtain ⟨x, hx, rfl⟩ := List.mem_map.1 hp
    obtain ⟨t, ht, ht0⟩ := hthick x hx
    obtain ⟨v, k, g1, g2, g3, g4, g5, g6⟩ := point_core ccfg diam x t (hfar x hx).1 hg (by linarith) hang
      (hfar x hx).2 ht
    refine ⟨v, t, k, diam, hmem, g1, g2, g3, g4, ht0, ?_, ?_⟩
    · rw [← hrho]; exact g5
    · rw [hpl]; exact g6
  · rw [hpts, hname]
    intro ho
    rw [List.pairwise_map]
    refine List.Pairwise.imp_of_mem ?_ hasc
    intro x y hx hy hxy
    obtain ⟨x1, x5⟩ := hbd x hx
    obtain ⟨y1, y5⟩ := hbd y hy
    obtain ⟨t, ht, ht0⟩ := hthick x hx
    obtain ⟨t', ht', ht0'⟩ := hthick y hy
    obtain ⟨v, k, g1, g2, g3, g4, g5, g6⟩ := point_core ccfg diam x t (hfar x hx).1 hg (by linarith) hang
      (hfar x hx).2 ht
    obtain ⟨v', k', g1', g2', g3', g4', g5', g6'⟩ := point_core ccfg diam y t' (hfar y hy).1 hg
      (by linarith) hang (hfar y hy).2 ht'
    have hd1 := hnb ho
    have hlt : diam / 2 * x < diam / 2 * y := mul_lt_mul_of_pos_left hxy (by linarith)
    refine ⟨hxy, v, t, k, v', t', k', g1, g2, g3, g1', g2', g3', ?_, ?_, ?_⟩
    · exact C52_increasing _ _ _ _ _ v v' hg (by linarith) (by rw [hang]; norm_num)
        (by rw [hang]; norm_num) (hfar x hx).1.le hlt (hfar y hy).2 g1 g1'
    · exact C36_decreasing ccfg.ej _ _ (diam / 2) t t' (hfar x hx).1 hlt (by linarith)
        (by rw [hs2c, hc2p]; norm_num) (by rw [hs2c]; intro h; exact hne (by linarith))
        (by rw [hc2p]; linarith) (by rw [hexp]; norm_num) ht ht'
    · exact C92_energy_falls ccfg diam x y k k' hd0 (by linarith) hxy hg (by linarith)
        (by rw [hang]; norm_num) (by rw [hang]; norm_num) (by nlinarith) (by rw [hs2c, hc2p]; norm_num)
        (by rw [hs2c]; exact hne) (by rw [hc2p]; exact hd1) (by rw [hexp]) (by rw [hrho]; norm_num) g3 g3'

/-- **C92 refuted**: the fourth panel does not show the depth a run computes, already at the rim
of the first complex crater of the default figure. -/
theorem C92_depth_refuted : ∃ cv curves, ejFigure EjFigCfg.default = .ok curves ∧ cv ∈ curves ∧
    cv.inDepthPanel = true ∧ ∃ p ∈ cv.points, ∃ shown run t m melt,
      p.1 = 1 ∧ cv.crater = "Harpalus" ∧ p.2.depth = .fin shown ∧ p.2.thick = .fin t ∧
      mixingRatio true 0.0183 0.87 (some 20800) = some m ∧
      bsedColumn ⟨true, 1, 140, false, 420, 260, 1e-6⟩ [3e9] [3e9] [t] [some m] [some 0] =
        .ok ([run], melt) ∧ run < shown := by
  obtain ⟨xs, hxs⟩ : ∃ xs, linspace (1 : ℝ) 5 100 = .ok xs := ⟨_, linspace_eq 1 5 100 (by norm_num)⟩
  obtain ⟨hfirst, -⟩ := linspace_last (1 : ℝ) 5 100 (by norm_num) xs hxs
  obtain ⟨t, ht, ht0⟩ := C36_positive_partial EjFigCfg.default.ej (41.6e3 / 2 * 1) (41.6e3 / 2)
    (by norm_num) (by norm_num) (by norm_num [EjFigCfg.default, EjCfg.default])
    (by norm_num [EjFigCfg.default, EjCfg.default]) (by norm_num [EjFigCfg.default, EjCfg.default])
  obtain ⟨shown, run, m, melt, h1, h2, h3, h4, -⟩ := C92_depth_partial EjFigCfg.default
    ⟨true, 1, 140, false, 420, 260, 1e-6⟩ 3e9 0 41.6e3 1 t (by norm_num) (by norm_num)
    (by norm_num [EjFigCfg.default]) (by norm_num [EjFigCfg.default]) (by norm_num) ht0 ht
  have e : (41.6e3 / 2 * 1 : ℝ) = 20800 := by norm_num
  rw [e] at h2
  refine ⟨ejCurve EjFigCfg.default xs ("Harpalus", 41.6e3), ejFigDiams.map (ejCurve EjFigCfg.default xs),
    ?_, ?_, rfl, (1, ejFigPoint EjFigCfg.default 41.6e3 1), ?_, shown, run, t, m, melt, rfl, rfl, h1, ht,
    h2, h3, h4 (by norm_num)⟩
  · unfold ejFigure
    rw [hxs]; rfl
  · exact List.mem_map.2 ⟨_, by simp [ejFigDiams], rfl⟩
  · exact List.mem_map.2 ⟨1, List.mem_of_getElem? hfirst, rfl⟩

/-- **C92** the energy marked for the Ries crater is the one of the curve, to 50 MJ, at a distance
within a ninety-ninth of a radius of four radii. -/
theorem C92_marker (c : EjFigCfg) (xs : List ℝ) (hxs : linspace (1 : ℝ) 5 100 = .ok xs) (diam : ℝ)
    (hd : 0 < diam) (marked : ℝ) (h : bunteBreccia c xs diam = .ok (.fin marked)) :
    ∃ x ∈ xs, |x - 4| ≤ 1 / 99 ∧ ∃ k, (ejFigPoint (earthCfg c) diam x).ke = .fin k ∧
      |marked - k| ≤ 50 ∧ ∃ n : Int, marked = n * 100 := by
  unfold bunteBreccia at h
  cases ha : argmin (xs.map (fun x => |diam / 2 * x - diam * 2|)) with
  | error e => rw [ha] at h; cases h
  | ok i =>
    rw [ha] at h
    simp only [bind, Except.bind] at h
    obtain ⟨w, hw, hmin, -⟩ := argmin_spec ha
    cases hx : xs[i]? with
    | none => rw [hx] at h; cases h
    | some x =>
      rw [hx] at h
      simp only [] at h
      rw [List.getElem?_map, hx, Option.map_some, Option.some.injEq] at hw
      refine ⟨x, List.mem_of_getElem? hx, ?_, ?_⟩
      · obtain ⟨-, hg⟩ := linspace_get (1 : ℝ) 5 100 (by norm_num) xs hxs
        have h74 := hg 74 (by norm_num)
        have hm := hmin 74 |diam / 2 * (1 + (74 : ℕ) * ((5 - 1) / ((100 : ℕ) - 1))) - diam * 2|
          (by rw [List.getElem?_map, h74]; rfl)
        rw [← hw] at hm
        have e1 : diam / 2 * x - diam * 2 = diam / 2 * (x - 4) := by ring
        have e2 : diam / 2 * (1 + (74 : ℕ) * ((5 - 1) / ((100 : ℕ) - 1))) - diam * 2 =
            diam / 2 * (-(1 / 99) : ℝ) := by norm_num; ring
        rw [e1, e2, abs_mul, abs_mul, abs_of_pos (by linarith : 0 < diam / 2)] at hm
        have := le_of_mul_le_mul_left hm (by linarith)
        rw [abs_neg, abs_of_pos (by norm_num : (0 : ℝ) < 1 / 99)] at this
        exact this
      · cases hk : (ejFigPoint (earthCfg c) diam x).ke with
        | nan => rw [hk] at h; cases h
        | inf => rw [hk] at h; cases h
        | fin k =>
          rw [hk] at h
          simp only [Except.ok.injEq, Flt.fin.injEq] at h
          refine ⟨k, rfl, ?_, _, h.symm⟩
          have := abs_le.1 (roundHalfEven_close (k / 100))
          rw [← h, abs_le]
          constructor <;> linarith

/-- The default figure has such a mark. -/
example : ∃ xs marked, linspace (1 : ℝ) 5 100 = .ok xs ∧
    bunteBreccia EjFigCfg.default xs 24e3 = .ok (.fin marked) := by
  obtain ⟨xs, hxs⟩ : ∃ xs, linspace (1 : ℝ) 5 100 = .ok xs := ⟨_, linspace_eq 1 5 100 (by norm_num)⟩
  obtain ⟨hlen, -⟩ := linspace_get (1 : ℝ) 5 100 (by norm_num) xs hxs
  obtain ⟨curves, hc, -, hall⟩ := C92_shipped
  have hcs : curves = ejFigDiams.map (ejCurve EjFigCfg.default xs) := by
    unfold ejFigure at hc
    rw [hxs] at hc
    injection hc with hc
    exact hc.symm
  obtain ⟨-, -, -, -, hpt, -⟩ := hall (ejCurve EjFigCfg.default xs ("Ries Basin", 24e3))
    (by rw [hcs]; exact List.mem_map.2 ⟨_, by simp [ejFigDiams], rfl⟩)
  obtain ⟨i, hi⟩ : ∃ i, argmin (xs.map (fun x => |(24e3 : ℝ) / 2 * x - 24e3 * 2|)) = .ok i := by
    cases xs with
    | nil => simp at hlen
    | cons x xs => exact ⟨_, rfl⟩
  obtain ⟨w, hw, -⟩ := argmin_spec hi
  rw [List.getElem?_map] at hw
  cases hx : xs[i]? with
  | none => rw [hx] at hw; cases hw
  | some x =>
    obtain ⟨v, t, k, diam, -, -, -, hk, -⟩ := hpt (x, ejFigPoint (earthCfg EjFigCfg.default) 24e3 x)
      (List.mem_map.2 ⟨x, List.mem_of_getElem? hx, rfl⟩)
    refine ⟨xs, (roundHalfEven (k / 100) : ℝ) * 100, hxs, ?_⟩
    unfold bunteBreccia
    rw [hi]
    simp only [bind, Except.bind, hx]
    have hk' : (ejFigPoint (earthCfg EjFigCfg.default) 24e3 x).ke = .fin k := hk
    rw [hk']

/-- **C92** no two curves look alike: with three colours taken in turn, curves of the same colour
differ in their line style. -/
theorem C92_style (c : EjFigCfg) (curves : List EjCurve) (h : ejFigure c = .ok curves) :
    curves.length = 6 ∧ ∀ (i j : Nat) (a b : EjCurve), curves[i]? = some a → curves[j]? = some b → i ≠ j → i % 3 = j % 3 →
      a.solid ≠ b.solid := by
  have hs : curves.map (·.solid) = [true, true, true, false, false, false] := by
    obtain ⟨xs, hxs⟩ : ∃ xs, linspace (1 : ℝ) 5 100 = .ok xs := ⟨_, linspace_eq 1 5 100 (by norm_num)⟩
    unfold ejFigure at h
    rw [hxs] at h
    simp only [bind, Except.bind] at h
    injection h with h
    rw [← h, List.map_map]
    simp [ejFigDiams, ejCurve]
  have hlen : curves.length = 6 := by
    have := congrArg List.length hs
    simpa using this
  refine ⟨hlen, ?_⟩
  intro i j a b hi hj hne hmod
  have hi' := (List.getElem?_eq_some_iff.mp hi).1
  have hj' := (List.getElem?_eq_some_iff.mp hj).1
  have ha : (curves.map (·.solid))[i]? = some a.solid := by rw [List.getElem?_map, hi]; rfl
  have hb : (curves.map (·.solid))[j]? = some b.solid := by rw [List.getElem?_map, hj]; rfl
  rw [hs] at ha hb
  intro e
  rw [e] at ha
  have : ∀ i < 6, ∀ j < 6, i ≠ j → i % 3 = j % 3 →
      ([true, true, true, false, false, false] : List Bool)[i]? ≠ ([true, true, true, false, false, false] : List Bool)[j]? := by
    decide
  exact this i (by omega) j (by omega) hne hmod (ha.trans hb.symm)

end MoonPIES
