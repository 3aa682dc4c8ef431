import Verif.Model.Flux
import Mathlib.Analysis.Calculus.Deriv.Pow
import Mathlib.Analysis.Calculus.Deriv.Add
import Mathlib.Analysis.Calculus.Deriv.Mul
import Mathlib.Analysis.Calculus.Deriv.MeanValue
import Mathlib.Analysis.SpecialFunctions.Pow.Real
import Mathlib.Tactic.Ring
import Mathlib.Tactic.Linarith
import Mathlib.Tactic.NormNum
import Mathlib.Tactic.Positivity

/-!
# The Neukum production polynomials decrease with diameter
-/

namespace MoonPIES

/-- The derivative of the 2001 polynomial is negative (Bernstein form on two pieces). -/
theorem neukum_slope_2001 (x : ℝ) (h1 : -2 < x) (h2 : x < 5 / 2) :
    (-444691 / 125000) + (781027 / 500000) * x + (3064563 / 1000000) * x ^ 2 + (-39003 /
      62500) * x ^ 3 + (-222029 / 100000) * x ^ 4 + (59931 / 500000) * x ^ 5 + (12159 / 20000)
      * x ^ 6 + (-2937 / 62500) * x ^ 7 + (-61281 / 1000000) * x ^ 8 + (33 / 4000) * x ^ 9 +
      (3047 / 5000000) * x ^ 10 < 0 := by
  rcases le_total x (1 / 4) with h | h
  · obtain ⟨u, hu⟩ : ∃ u, u = x - (-2) := ⟨_, rfl⟩
    obtain ⟨v, hv⟩ : ∃ v, v = 1 / 4 - x := ⟨_, rfl⟩
    have p : 0 < u := by linarith
    have r : 0 ≤ v := by linarith
    have e : (-444691 / 125000) + (781027 / 500000) * x + (3064563 / 1000000) * x ^ 2 +
      (-39003 / 62500) * x ^ 3 + (-222029 / 100000) * x ^ 4 + (59931 / 500000) * x ^ 5 +
      (12159 / 20000) * x ^ 6 + (-2937 / 62500) * x ^ 7 + (-61281 / 1000000) * x ^ 8 + (33 /
      4000) * x ^ 9 + (3047 / 5000000) * x ^ 10 = -((258486960128 / 272405031328125) * (v ^
      10) + (394796818432 / 54481006265625) * (u * v ^ 9) + (315023848448 / 6053445140625) *
      (u ^ 2 * v ^ 8) + (2206481723392 / 18160335421875) * (u ^ 3 * v ^ 7) + (3066297267328 /
      18160335421875) * (u ^ 4 * v ^ 6) + (6522382661792 / 30267225703125) * (u ^ 5 * v ^ 5) +
      (4051124753848 / 18160335421875) * (u ^ 6 * v ^ 4) + (2657233973632 / 18160335421875) *
      (u ^ 7 * v ^ 3) + (1333394878961 / 24213780562500) * (u ^ 8 * v ^ 2) + (952531862137 /
      87169610025000) * (u ^ 9 * v) + (15695302431713 / 17433922005000000) * (u ^ 10)) := by
      rw [hu, hv]; ring
    rw [e, neg_lt_zero]
    positivity
  · obtain ⟨u, hu⟩ : ∃ u, u = x - (1 / 4) := ⟨_, rfl⟩
    obtain ⟨v, hv⟩ : ∃ v, v = 5 / 2 - x := ⟨_, rfl⟩
    have p : 0 ≤ u := by linarith
    have r : 0 < v := by linarith
    have e : (-444691 / 125000) + (781027 / 500000) * x + (3064563 / 1000000) * x ^ 2 +
      (-39003 / 62500) * x ^ 3 + (-222029 / 100000) * x ^ 4 + (59931 / 500000) * x ^ 5 +
      (12159 / 20000) * x ^ 6 + (-2937 / 62500) * x ^ 7 + (-61281 / 1000000) * x ^ 8 + (33 /
      4000) * x ^ 9 + (3047 / 5000000) * x ^ 10 = -((15695302431713 / 17433922005000000) * (v
      ^ 10) + (6169983810343 / 871696100250000) * (u * v ^ 9) + (1978244704817 /
      96855122250000) * (u ^ 2 * v ^ 8) + (462851141503 / 18160335421875) * (u ^ 3 * v ^ 7) +
      (868233535079 / 36320670843750) * (u ^ 4 * v ^ 6) + (430083774586 / 6053445140625) * (u
      ^ 5 * v ^ 5) + (2633142086638 / 18160335421875) * (u ^ 6 * v ^ 4) + (2287518551536 /
      18160335421875) * (u ^ 7 * v ^ 3) + (275805783428 / 6053445140625) * (u ^ 8 * v ^ 2) +
      (400310260336 / 54481006265625) * (u ^ 9 * v) + (28757493712 / 54481006265625) * (u ^
      10)) := by
      rw [hu, hv]; ring
    rw [e, neg_lt_zero]
    positivity

/-- The derivative of the 1983 polynomial is negative (Bernstein form on two pieces). -/
theorem neukum_slope_1983 (x : ℝ) (h1 : -2 < x) (h2 : x < 5 / 2) :
    (-36269 / 10000) + (2183 / 2500) * x + (4761 / 2000) * x ^ 2 + (173 / 500) * x ^ 3 +
      (-2649 / 2000) * x ^ 4 + (-249 / 625) * x ^ 5 + (2653 / 10000) * x ^ 6 + (53 / 625) * x
      ^ 7 + (-99 / 5000) * x ^ 8 + (-259 / 50000) * x ^ 9 + (4367 / 10000000) * x ^ 10 < 0 :=
      by
  rcases le_total x (1 / 4) with h | h
  · obtain ⟨u, hu⟩ : ∃ u, u = x - (-2) := ⟨_, rfl⟩
    obtain ⟨v, hv⟩ : ∃ v, v = 1 / 4 - x := ⟨_, rfl⟩
    have p : 0 < u := by linarith
    have r : 0 ≤ v := by linarith
    have e : (-36269 / 10000) + (2183 / 2500) * x + (4761 / 2000) * x ^ 2 + (173 / 500) * x ^
      3 + (-2649 / 2000) * x ^ 4 + (-249 / 625) * x ^ 5 + (2653 / 10000) * x ^ 6 + (53 / 625)
      * x ^ 7 + (-99 / 5000) * x ^ 8 + (-259 / 50000) * x ^ 9 + (4367 / 10000000) * x ^ 10 =
      -((238154481664 / 272405031328125) * (v ^ 10) + (506811121664 / 54481006265625) * (u * v
      ^ 9) + (264108322816 / 6053445140625) * (u ^ 2 * v ^ 8) + (2101623025664 /
      18160335421875) * (u ^ 3 * v ^ 7) + (3465040806656 / 18160335421875) * (u ^ 4 * v ^ 6) +
      (7050528307456 / 30267225703125) * (u ^ 5 * v ^ 5) + (3940261162064 / 18160335421875) *
      (u ^ 6 * v ^ 4) + (2503956233504 / 18160335421875) * (u ^ 7 * v ^ 3) + (645793621313 /
      12106890281250) * (u ^ 8 * v ^ 2) + (4874282421277 / 435848050125000) * (u ^ 9 * v) +
      (34182589482833 / 34867844010000000) * (u ^ 10)) := by
      rw [hu, hv]; ring
    rw [e, neg_lt_zero]
    positivity
  · obtain ⟨u, hu⟩ : ∃ u, u = x - (1 / 4) := ⟨_, rfl⟩
    obtain ⟨v, hv⟩ : ∃ v, v = 5 / 2 - x := ⟨_, rfl⟩
    have p : 0 ≤ u := by linarith
    have r : 0 < v := by linarith
    have e : (-36269 / 10000) + (2183 / 2500) * x + (4761 / 2000) * x ^ 2 + (173 / 500) * x ^
      3 + (-2649 / 2000) * x ^ 4 + (-249 / 625) * x ^ 5 + (2653 / 10000) * x ^ 6 + (53 / 625)
      * x ^ 7 + (-99 / 5000) * x ^ 8 + (-259 / 50000) * x ^ 9 + (4367 / 10000000) * x ^ 10 =
      -((34182589482833 / 34867844010000000) * (v ^ 10) + (587418391909 / 69735688020000) * (u
      * v ^ 9) + (44168224429 / 1549681956000) * (u ^ 2 * v ^ 8) + (67255271341 /
      1452826833750) * (u ^ 3 * v ^ 7) + (114852171647 / 2905653667500) * (u ^ 4 * v ^ 6) +
      (10946124119 / 242137805625) * (u ^ 5 * v ^ 5) + (72070348631 / 726413416875) * (u ^ 6 *
      v ^ 4) + (85881072104 / 726413416875) * (u ^ 7 * v ^ 3) + (13984846642 / 242137805625) *
      (u ^ 8 * v ^ 2) + (18725512232 / 2179240250625) * (u ^ 9 * v) + (710131304 /
      2179240250625) * (u ^ 10)) := by
      rw [hu, hv]; ring
    rw [e, neg_lt_zero]
    positivity

/-- Spec: the coefficients of Neukum et al. (2001) as configured (config.py:158-159). -/
noncomputable def neukumA2001 : List ℝ :=
  [-3.0876, -3.557528, 0.781027, 1.021521, -0.156012, -0.444058,
   0.019977, 0.086850, -0.005874, -0.006809, 8.25e-4, 5.54e-5]

theorem neukum_anti_2001 : StrictAntiOn
    (fun x : ℝ => (neukumA2001.mapIdx (fun j c => c * x ^ j)).sum) (Set.Icc (-2) (5 / 2)) := by
  have e : (fun x : ℝ => (neukumA2001.mapIdx (fun j c => c * x ^ j)).sum) = fun x : ℝ =>
      (-3.0876) * x ^ 0 + (-3.557528) * x ^ 1 + 0.781027 * x ^ 2 + 1.021521 * x ^ 3 +
      (-0.156012) * x ^ 4 + (-0.444058) * x ^ 5 + 0.019977 * x ^ 6 + 0.086850 * x ^ 7 +
      (-0.005874) * x ^ 8 + (-0.006809) * x ^ 9 + 8.25e-4 * x ^ 10 + 5.54e-5 * x ^ 11 := by
    funext x
    simp only [neukumA2001, List.mapIdx_cons, List.mapIdx_nil, List.sum_cons, List.sum_nil]
    ring
  rw [e]
  apply strictAntiOn_of_deriv_neg (convex_Icc _ _)
  · fun_prop
  · intro x hx
    rw [interior_Icc] at hx
    have h := neukum_slope_2001 x hx.1 hx.2
    have hp : ∀ (c : ℝ) (n : ℕ), HasDerivAt (fun x : ℝ => c * x ^ n) (c * (n * x ^ (n - 1))) x :=
      fun c n => (hasDerivAt_pow n x).const_mul c
    have hd := (((((((((((hp (-3.0876) 0).add (hp (-3.557528) 1)).add (hp (0.781027) 2)).add (hp
      (1.021521) 3)).add (hp (-0.156012) 4)).add (hp (-0.444058) 5)).add (hp (0.019977)
      6)).add (hp (0.086850) 7)).add (hp (-0.005874) 8)).add (hp (-0.006809) 9)).add (hp
      (8.25e-4) 10)).add (hp (5.54e-5) 11)
    refine lt_of_eq_of_lt hd.deriv ?_
    norm_num at h ⊢
    linarith

/-- Spec: the coefficients of Neukum et al. (1983) as configured (config.py:158-159). -/
noncomputable def neukumA1983 : List ℝ :=
  [-3.0768, -3.6269, 0.4366, 0.7935, 0.0865, -0.2649,
   -0.0664, 0.0379, 0.0106, -0.0022, -5.18e-4, 3.97e-5]

theorem neukum_anti_1983 : StrictAntiOn
    (fun x : ℝ => (neukumA1983.mapIdx (fun j c => c * x ^ j)).sum) (Set.Icc (-2) (5 / 2)) := by
  have e : (fun x : ℝ => (neukumA1983.mapIdx (fun j c => c * x ^ j)).sum) = fun x : ℝ =>
      (-3.0768) * x ^ 0 + (-3.6269) * x ^ 1 + 0.4366 * x ^ 2 + 0.7935 * x ^ 3 + 0.0865 * x ^
      4 + (-0.2649) * x ^ 5 + (-0.0664) * x ^ 6 + 0.0379 * x ^ 7 + 0.0106 * x ^ 8 +
      (-0.0022) * x ^ 9 + (-5.18e-4) * x ^ 10 + 3.97e-5 * x ^ 11 := by
    funext x
    simp only [neukumA1983, List.mapIdx_cons, List.mapIdx_nil, List.sum_cons, List.sum_nil]
    ring
  rw [e]
  apply strictAntiOn_of_deriv_neg (convex_Icc _ _)
  · fun_prop
  · intro x hx
    rw [interior_Icc] at hx
    have h := neukum_slope_1983 x hx.1 hx.2
    have hp : ∀ (c : ℝ) (n : ℕ), HasDerivAt (fun x : ℝ => c * x ^ n) (c * (n * x ^ (n - 1))) x :=
      fun c n => (hasDerivAt_pow n x).const_mul c
    have hd := (((((((((((hp (-3.0768) 0).add (hp (-3.6269) 1)).add (hp (0.4366) 2)).add (hp (0.7935)
      3)).add (hp (0.0865) 4)).add (hp (-0.2649) 5)).add (hp (-0.0664) 6)).add (hp
      (0.0379) 7)).add (hp (0.0106) 8)).add (hp (-0.0022) 9)).add (hp (-5.18e-4) 10)).add
      (hp (3.97e-5) 11)
    refine lt_of_eq_of_lt hd.deriv ?_
    norm_num at h ⊢
    linarith

end MoonPIES
