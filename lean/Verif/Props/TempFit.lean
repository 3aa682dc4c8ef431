import Verif.Model.TempFit
import Verif.Props.HopFig
import Mathlib.LinearAlgebra.Matrix.ToLinearEquiv
import Mathlib.LinearAlgebra.Matrix.Determinant.Basic
import Mathlib.Data.Matrix.Mul
import Mathlib.Tactic.NormNum
import Mathlib.Tactic.Linarith
import Mathlib.Tactic.LinearCombination
import Mathlib.Tactic.FieldSimp

/-!
# C122: the coefficients of the fit to ejecta temperatures
-/

namespace MoonPIES

open Spec

/-- Spec: sum of the squared distances of points from a quadratic. -/
noncomputable def Spec.misfit (pts : List (ℝ × ℝ)) (a b c : ℝ) : ℝ :=
  (pts.map fun p => (a * p.1 ^ 2 + b * p.1 + c - p.2) ^ 2).sum

/-- Spec: no quadratic is closer to the points, and no other as close. -/
def Spec.BestQuadratic (pts : List (ℝ × ℝ)) (a b c : ℝ) : Prop :=
  ∀ a' b' c', misfit pts a b c ≤ misfit pts a' b' c' ∧
    (misfit pts a' b' c' = misfit pts a b c → a' = a ∧ b' = b ∧ c' = c)

theorem quadratic_zero {x y z a b c : ℝ} (hxy : x ≠ y) (hxz : x ≠ z) (hyz : y ≠ z)
    (h1 : a * x ^ 2 + b * x + c = 0) (h2 : a * y ^ 2 + b * y + c = 0) (h3 : a * z ^ 2 + b * z + c = 0) :
    a = 0 ∧ b = 0 ∧ c = 0 := by
  have e1 : (x - y) * (a * (x + y) + b) = 0 := by linear_combination h1 - h2
  have e2 : (x - z) * (a * (x + z) + b) = 0 := by linear_combination h1 - h3
  have f1 : a * (x + y) + b = 0 := (mul_eq_zero.1 e1).resolve_left (sub_ne_zero.2 hxy)
  have f2 : a * (x + z) + b = 0 := (mul_eq_zero.1 e2).resolve_left (sub_ne_zero.2 hxz)
  have e3 : (y - z) * a = 0 := by linear_combination f1 - f2
  have ha : a = 0 := (mul_eq_zero.1 e3).resolve_left (sub_ne_zero.2 hyz)
  subst ha
  have hb : b = 0 := by linear_combination f1
  subst hb
  exact ⟨rfl, rfl, by linear_combination h1⟩

theorem sum_lin3 (pts : List (ℝ × ℝ)) (f g h : ℝ × ℝ → ℝ) (a b c : ℝ) :
    (pts.map fun p => a * f p + b * g p + c * h p).sum =
      a * (pts.map f).sum + b * (pts.map g).sum + c * (pts.map h).sum := by
  induction pts with
  | nil => simp
  | cons p l ih => simp only [List.map_cons, List.sum_cons, ih]; ring

theorem sum_congr_map {f g : ℝ × ℝ → ℝ} (pts : List (ℝ × ℝ)) (h : ∀ p, f p = g p) :
    (pts.map f).sum = (pts.map g).sum := by rw [show f = g from funext h]

/-- **C122** For points with three different abscissae, `np.polyfit` of degree 2 gives the closest
quadratic, and only that one. -/
theorem C122_best (pts : List (ℝ × ℝ)) (p q r : ℝ × ℝ) (hp : p ∈ pts) (hq : q ∈ pts) (hr : r ∈ pts)
    (hpq : p.1 ≠ q.1) (hpr : p.1 ≠ r.1) (hqr : q.1 ≠ r.1) :
    BestQuadratic pts (polyfit2 pts).1 (polyfit2 pts).2.1 (polyfit2 pts).2.2 := by
  obtain ⟨s4, h4⟩ : ∃ t, t = (pts.map fun p => p.1 ^ 4).sum := ⟨_, rfl⟩
  obtain ⟨s3, h3⟩ : ∃ t, t = (pts.map fun p => p.1 ^ 3).sum := ⟨_, rfl⟩
  obtain ⟨s2, h2⟩ : ∃ t, t = (pts.map fun p => p.1 ^ 2).sum := ⟨_, rfl⟩
  obtain ⟨s1, h1⟩ : ∃ t, t = (pts.map fun p => p.1).sum := ⟨_, rfl⟩
  obtain ⟨s0, h0⟩ : ∃ t, t = (pts.length : ℝ) := ⟨_, rfl⟩
  obtain ⟨t2, k2⟩ : ∃ t, t = (pts.map fun p => p.1 ^ 2 * p.2).sum := ⟨_, rfl⟩
  obtain ⟨t1, k1⟩ : ∃ t, t = (pts.map fun p => p.1 * p.2).sum := ⟨_, rfl⟩
  obtain ⟨t0, k0⟩ : ∃ t, t = (pts.map fun p => p.2).sum := ⟨_, rfl⟩
  have one : (pts.map fun _ => (1 : ℝ)).sum = s0 := by rw [h0]; simp
  -- the quadratic form of the matrix is a sum of squares
  have form : ∀ a b c, (pts.map fun p => (a * p.1 ^ 2 + b * p.1 + c) ^ 2).sum =
      a * (a * s4 + b * s3 + c * s2) + b * (a * s3 + b * s2 + c * s1) + c * (a * s2 + b * s1 + c * s0) := by
    intro a b c
    rw [sum_congr_map pts (fun p => show (a * p.1 ^ 2 + b * p.1 + c) ^ 2 =
      1 * (a ^ 2 * p.1 ^ 4 + 2 * a * b * p.1 ^ 3 + (b ^ 2 + 2 * a * c) * p.1 ^ 2) +
        2 * b * c * p.1 + c ^ 2 * 1 by ring),
      sum_lin3 pts _ (fun p => p.1) (fun _ => 1), sum_lin3, one, ← h4, ← h3, ← h2, ← h1]
    ring
  have zero : ∀ a b c, (pts.map fun p => (a * p.1 ^ 2 + b * p.1 + c) ^ 2).sum = 0 → a = 0 ∧ b = 0 ∧ c = 0 := by
    intro a b c h
    have := sum_sq_zero pts (fun p => a * p.1 ^ 2 + b * p.1 + c) h
    exact quadratic_zero hpq hpr hqr (this p hp) (this q hq) (this r hr)
  obtain ⟨det, hdet⟩ : ∃ t, t = s4 * (s2 * s0 - s1 * s1) - s3 * (s3 * s0 - s1 * s2) + s2 * (s3 * s1 - s2 * s2) :=
    ⟨_, rfl⟩
  have hd0 : det ≠ 0 := by
    intro hz
    have hm : (!![s4, s3, s2; s3, s2, s1; s2, s1, s0] : Matrix (Fin 3) (Fin 3) ℝ).det = 0 := by
      rw [Matrix.det_fin_three]
      simp
      linear_combination hz - hdet
    obtain ⟨v, hv, hv0⟩ := Matrix.exists_mulVec_eq_zero_iff.2 hm
    have e0 := congrFun hv0 0
    have e1 := congrFun hv0 1
    have e2 := congrFun hv0 2
    simp [Matrix.mulVec, dotProduct, Fin.sum_univ_three] at e0 e1 e2
    have := zero (v 0) (v 1) (v 2) (by rw [form]; linear_combination v 0 * e0 + v 1 * e1 + v 2 * e2)
    apply hv
    funext i
    fin_cases i
    · exact this.1
    · exact this.2.1
    · exact this.2.2
  obtain ⟨a, ha⟩ : ∃ t, t = (polyfit2 pts).1 := ⟨_, rfl⟩
  obtain ⟨b, hb⟩ : ∃ t, t = (polyfit2 pts).2.1 := ⟨_, rfl⟩
  obtain ⟨c, hc⟩ : ∃ t, t = (polyfit2 pts).2.2 := ⟨_, rfl⟩
  rw [← ha, ← hb, ← hc]
  unfold polyfit2 at ha hb hc
  simp only [← h4, ← h3, ← h2, ← h1, ← h0, ← k2, ← k1, ← k0, ← hdet] at ha hb hc
  rw [eq_div_iff hd0] at ha hb hc
  -- the normal equations
  have n2 : a * s4 + b * s3 + c * s2 = t2 := by
    apply mul_right_cancel₀ hd0
    linear_combination s4 * ha + s3 * hb + s2 * hc - t2 * hdet
  have n1 : a * s3 + b * s2 + c * s1 = t1 := by
    apply mul_right_cancel₀ hd0
    linear_combination s3 * ha + s2 * hb + s1 * hc - t1 * hdet
  have n0 : a * s2 + b * s1 + c * s0 = t0 := by
    apply mul_right_cancel₀ hd0
    linear_combination s2 * ha + s1 * hb + s0 * hc - t0 * hdet
  have split : ∀ a' b' c', misfit pts a' b' c' = misfit pts a b c +
      (pts.map fun p => ((a' - a) * p.1 ^ 2 + (b' - b) * p.1 + (c' - c)) ^ 2).sum := by
    intro a' b' c'
    have cross : (pts.map fun p => ((a' - a) * p.1 ^ 2 + (b' - b) * p.1 + (c' - c)) *
        (a * p.1 ^ 2 + b * p.1 + c - p.2)).sum = 0 := by
      rw [sum_congr_map pts (fun p => show ((a' - a) * p.1 ^ 2 + (b' - b) * p.1 + (c' - c)) *
          (a * p.1 ^ 2 + b * p.1 + c - p.2) =
          1 * (1 * ((a' - a) * a * p.1 ^ 4 + ((a' - a) * b + (b' - b) * a) * p.1 ^ 3 +
            ((a' - a) * c + (b' - b) * b + (c' - c) * a) * p.1 ^ 2) +
            ((b' - b) * c + (c' - c) * b) * p.1 + (c' - c) * c * 1) +
          (-1) * ((a' - a) * (p.1 ^ 2 * p.2) + (b' - b) * (p.1 * p.2) + (c' - c) * p.2) + 0 * 1 by ring),
        sum_lin3 pts _ (fun p => (a' - a) * (p.1 ^ 2 * p.2) + (b' - b) * (p.1 * p.2) + (c' - c) * p.2) (fun _ => 1),
        sum_lin3 pts _ (fun p => p.1) (fun _ => 1), sum_lin3, sum_lin3, one, ← h4, ← h3, ← h2, ← h1, ← k2, ← k1, ← k0]
      linear_combination (a' - a) * n2 + (b' - b) * n1 + (c' - c) * n0
    unfold misfit
    rw [sum_congr_map pts (fun p => show (a' * p.1 ^ 2 + b' * p.1 + c' - p.2) ^ 2 =
      1 * (a * p.1 ^ 2 + b * p.1 + c - p.2) ^ 2 +
      2 * (((a' - a) * p.1 ^ 2 + (b' - b) * p.1 + (c' - c)) * (a * p.1 ^ 2 + b * p.1 + c - p.2)) +
      1 * ((a' - a) * p.1 ^ 2 + (b' - b) * p.1 + (c' - c)) ^ 2 by ring), sum_lin3, cross]
    ring
  intro a' b' c'
  rw [split a' b' c']
  have := sum_sq_nonneg pts (fun p => (a' - a) * p.1 ^ 2 + (b' - b) * p.1 + (c' - c))
  refine ⟨by linarith, fun h => ?_⟩
  obtain ⟨z1, z2, z3⟩ := zero (a' - a) (b' - b) (c' - c) (by linarith)
  exact ⟨by linarith, by linarith, by linarith⟩


theorem misfit_scale (s : ℝ) (hs : s ≠ 0) (pts : List (ℝ × ℝ)) (a b c : ℝ) :
    misfit (pts.map fun p => (p.1 / s, p.2)) a b c = misfit pts (a / s ^ 2) (b / s) c := by
  unfold misfit
  rw [List.map_map]
  congr 1
  apply List.map_congr_left
  intro p _
  simp only [Function.comp_apply]
  field_simp

/-- The closest quadratic in another unit. -/
theorem best_scale (s : ℝ) (hs : s ≠ 0) (pts : List (ℝ × ℝ)) (a b c : ℝ)
    (h : BestQuadratic (pts.map fun p => (p.1 / s, p.2)) a b c) : BestQuadratic pts (a / s ^ 2) (b / s) c := by
  intro a' b' c'
  have := h (a' * s ^ 2) (b' * s) c'
  rw [misfit_scale s hs, misfit_scale s hs, mul_div_cancel_right₀ _ (pow_ne_zero 2 hs),
    mul_div_cancel_right₀ _ hs] at this
  refine ⟨this.1, fun e => ?_⟩
  obtain ⟨e1, e2, e3⟩ := this.2 e
  exact ⟨by rw [← e1, mul_div_cancel_right₀ _ (pow_ne_zero 2 hs)], by rw [← e2, mul_div_cancel_right₀ _ hs], e3⟩

/-- Spec: the points read off the figure of Fernandes and Artemieva (2012), distance from Imbrium in km
and temperature in K. -/
noncomputable def Spec.coldPoints : List (ℝ × ℝ) :=
  [(1400, 260), (2040, 260), (2825, 300), (3675, 350), (4500, 480), (5200, 500)]
/-- Spec: the same for a warm Moon. -/
noncomputable def Spec.warmPoints : List (ℝ × ℝ) :=
  [(1400, 420), (2040, 420), (2825, 440), (3675, 460), (4500, 540), (5200, 600)]

/-- Spec: points with their distance in radii of Imbrium (769 km across). -/
noncomputable def Spec.inRadii (pts : List (ℝ × ℝ)) : List (ℝ × ℝ) := pts.map fun p => (p.1 / 384.5, p.2)

/-- Spec: the default of a field is a tuple of three numbers. -/
def Spec.DefaultTuple (field : String) (a b c : ℚ) : Prop :=
  ∃ decl ∈ cfgFields, decl.name = field ∧ decl.dflt = .tuple [.float a, .float b, .float c]

theorem fit_points : fernandesCrad.zip fernandesCold = coldPoints.map (fun p => (p.1 / 384500, p.2)) ∧
    fernandesCrad.zip fernandesWarm = warmPoints.map (fun p => (p.1 / 384500, p.2)) := by
  have h : dImb / 2 = 384500 := by unfold dImb; norm_num
  unfold fernandesCrad
  rw [h]
  exact ⟨rfl, rfl⟩

theorem fit_cold : fernandesFit fernandesCold =
    (247373958505426390000 / 121745120018559, -310772183536203100 / 40581706672853,
      30675191280025130 / 121745120018559) := by
  unfold fernandesFit polyfit2
  rw [fit_points.1]
  unfold coldPoints
  norm_num

theorem fit_warm : fernandesFit fernandesWarm =
    (298106013391843810000 / 121745120018559, -967636785873562400 / 40581706672853,
      57980024367713765 / 121745120018559) := by
  unfold fernandesFit polyfit2
  rw [fit_points.2]
  unfold warmPoints
  norm_num

theorem best_fit : (BestQuadratic (coldPoints.map fun p => (p.1 / 384500, p.2)) (fernandesFit fernandesCold).1
      (fernandesFit fernandesCold).2.1 (fernandesFit fernandesCold).2.2) ∧
    BestQuadratic (warmPoints.map fun p => (p.1 / 384500, p.2)) (fernandesFit fernandesWarm).1
      (fernandesFit fernandesWarm).2.1 (fernandesFit fernandesWarm).2.2 := by
  unfold fernandesFit
  rw [fit_points.1, fit_points.2]
  constructor
  · apply C122_best _ (1400 / 384500, 260) (2040 / 384500, 260) (2825 / 384500, 300)
    · simp [coldPoints]
    · simp [coldPoints]
    · simp [coldPoints]
    all_goals norm_num
  · apply C122_best _ (1400 / 384500, 420) (2040 / 384500, 420) (2825 / 384500, 440)
    · simp [warmPoints]
    · simp [warmPoints]
    · simp [warmPoints]
    all_goals norm_num

/-- **C122** (full claim: the default coefficients are those of the quadratic fit to the temperatures with
distance in crater radii, which is false, `C122_radii_refuted`.)  The defaults are, to four significant
digits, the coefficients of the closest quadratic with distance in *thousandths* of crater radii: kilometres
divided by metres. -/
theorem C122_params_partial :
    (∃ a b c : ℚ, DefaultTuple "ejecta_temp_dist_params_cold" a b c ∧
      ∃ x y z, BestQuadratic (coldPoints.map fun p => (p.1 / 384500, p.2)) x y z ∧
        |(a : ℝ) - x| < 500 ∧ |(b : ℝ) - y| < 0.5 ∧ |(c : ℝ) - z| < 0.05) ∧
    ∃ a b c : ℚ, DefaultTuple "ejecta_temp_dist_params_warm" a b c ∧
      ∃ x y z, BestQuadratic (warmPoints.map fun p => (p.1 / 384500, p.2)) x y z ∧
        |(a : ℝ) - x| < 500 ∧ |(b : ℝ) - y| < 5 ∧ |(c : ℝ) - z| < 0.05 := by
  obtain ⟨h1, h2⟩ := best_fit
  rw [fit_cold] at h1
  rw [fit_warm] at h2
  refine ⟨⟨2032000, -7658, 252, by unfold DefaultTuple; decide +kernel, _, _, _, h1, ?_, ?_, ?_⟩,
    ⟨2449000, -23840, 2381 / 5, by unfold DefaultTuple; decide +kernel, _, _, _, h2, ?_, ?_, ?_⟩⟩
  all_goals
    rw [abs_lt]
    constructor <;> norm_num

/-- **C122** The defaults are not the coefficients with distance in crater radii: those are a million and a
thousand times smaller, and at four radii from Imbrium the defaults give more than thirty million kelvin. -/
theorem C122_radii_refuted :
    ∃ a b c a' b' c' : ℚ, DefaultTuple "ejecta_temp_dist_params_cold" a b c ∧
      DefaultTuple "ejecta_temp_dist_params_warm" a' b' c' ∧
      (∀ x y z, BestQuadratic (inRadii coldPoints) x y z →
        |x - 2.032| < 0.0005 ∧ |y + 7.658| < 0.0005 ∧ |(c : ℝ) - z| < 0.05 ∧ (a : ℝ) ≠ x ∧ (b : ℝ) ≠ y) ∧
      (∀ x y z, BestQuadratic (inRadii warmPoints) x y z →
        |x - 2.449| < 0.0005 ∧ |y + 23.84| < 0.005 ∧ |(c' : ℝ) - z| < 0.05 ∧ (a' : ℝ) ≠ x ∧ (b' : ℝ) ≠ y) ∧
      3e7 < a * 4 ^ 2 + b * 4 + c ∧ 3e7 < a' * 4 ^ 2 + b' * 4 + c' := by
  obtain ⟨h1, h2⟩ := best_fit
  rw [fit_cold] at h1
  rw [fit_warm] at h2
  have uniq : ∀ (pts : List (ℝ × ℝ)) (a b c x y z : ℝ), BestQuadratic pts a b c → BestQuadratic pts x y z →
      x = a ∧ y = b ∧ z = c := fun pts a b c x y z h h' => (h x y z).2 (le_antisymm (h' a b c).1 (h x y z).1)
  have sc : ∀ pts : List (ℝ × ℝ), (pts.map fun p => (p.1 / 384500, p.2)) =
      (inRadii pts).map fun p => (p.1 / 1000, p.2) := by
    intro pts
    unfold inRadii
    rw [List.map_map]
    apply List.map_congr_left
    intro p _
    simp only [Function.comp_apply]
    congr 1
    rw [div_div]; norm_num
  rw [sc] at h1 h2
  have h1 := best_scale 1000 (by norm_num) _ _ _ _ h1
  have h2 := best_scale 1000 (by norm_num) _ _ _ _ h2
  refine ⟨2032000, -7658, 252, 2449000, -23840, 2381 / 5, by unfold DefaultTuple; decide +kernel,
    by unfold DefaultTuple; decide +kernel, ?_, ?_, by norm_num, by norm_num⟩
  · intro x y z h
    obtain ⟨rfl, rfl, rfl⟩ := uniq _ _ _ _ _ _ _ h1 h
    refine ⟨?_, ?_, ?_, by norm_num, by norm_num⟩
    all_goals
      rw [abs_lt]
      constructor <;> norm_num
  · intro x y z h
    obtain ⟨rfl, rfl, rfl⟩ := uniq _ _ _ _ _ _ _ h2 h
    refine ⟨?_, ?_, ?_, by norm_num, by norm_num⟩
    all_goals
      rw [abs_lt]
      constructor <;> norm_num

/-- **C122** The dashed curves of the notebook are right all the same: over every distance they stand at the
height of the closest quadratic in kilometres. -/
theorem C122_curve (dist : List ℝ) :
    (∃ a b c, BestQuadratic coldPoints a b c ∧ List.Forall₂ (fun m p => p.1 = m / 1000 ∧
      p.2 = a * (m / 1000) ^ 2 + b * (m / 1000) + c) dist (fernandesCurve fernandesCold dist)) ∧
    ∃ a b c, BestQuadratic warmPoints a b c ∧ List.Forall₂ (fun m p => p.1 = m / 1000 ∧
      p.2 = a * (m / 1000) ^ 2 + b * (m / 1000) + c) dist (fernandesCurve fernandesWarm dist) := by
  have h : dImb / 2 = 384500 := by unfold dImb; norm_num
  have curve : ∀ temps, List.Forall₂ (fun m p => p.1 = m / 1000 ∧
      p.2 = (fernandesFit temps).1 / 384500 ^ 2 * (m / 1000) ^ 2 + (fernandesFit temps).2.1 / 384500 * (m / 1000) +
        (fernandesFit temps).2.2) dist (fernandesCurve temps dist) := by
    intro temps
    unfold fernandesCurve poly2
    rw [List.forall₂_map_right_iff]
    refine List.forall₂_same.2 fun m _ => ⟨by norm_num, ?_⟩
    simp only []
    rw [h]
    norm_num
    ring
  exact ⟨⟨_, _, _, best_scale 384500 (by norm_num) _ _ _ _ best_fit.1, curve _⟩,
    ⟨_, _, _, best_scale 384500 (by norm_num) _ _ _ _ best_fit.2, curve _⟩⟩

/-- Three points on a parabola. -/
example : BestQuadratic [(0, 1), (1, 2), (2, 5)] (polyfit2 [(0, 1), (1, 2), (2, 5)]).1
    (polyfit2 [(0, 1), (1, 2), (2, 5)]).2.1 (polyfit2 [(0, 1), (1, 2), (2, 5)]).2.2 :=
  C122_best _ (0, 1) (1, 2) (2, 5) (by simp) (by simp) (by simp) (by norm_num) (by norm_num) (by norm_num)

end MoonPIES
