import Verif.Model.KeNotebook
import Verif.Props.Ballistic
import Verif.Lemmas.Linspace
import Mathlib.Analysis.Real.Pi.Bounds
import Mathlib.Tactic.LinearCombination

/-!
# C123: speeds and kinetic energies of the first notebook
-/

namespace MoonPIES

open Real

/-- Spec: the speed at 45 degrees, in km/h, over a plane or a sphere with the notebook's gravity and radius, for a
distance in km. -/
noncomputable def Spec.kmhPlanar (km : ℝ) : ℝ := 3.6 * sqrt (km * 1000 * 1.624)
/-- Spec: over a sphere, `v² = 2 g R sin φ / (sin φ + cos φ)`. -/
noncomputable def Spec.kmhSphere (km : ℝ) : ℝ :=
  3.6 * sqrt (2 * 1.624 * 1737000 * (sin (km / 3474) / (sin (km / 3474) + cos (km / 3474))))

open Spec

theorem planar_fin (theta d g : ℝ) (h0 : 0 < theta) (h1 : theta < π / 2) (hd : 0 < d) (hg : 0 < g) :
    ballisticPlanar theta d g = .fin (sqrt (d * g / sin (2 * theta))) := by
  have hs : 0 < sin (2 * theta) := sin_pos_of_pos_of_lt_pi (by linarith) (by linarith)
  unfold ballisticPlanar npDiv
  rw [if_neg hs.ne']
  simp only [Flt.sqrt]
  rw [if_neg (not_lt.2 (by positivity))]

theorem spherical_fin (theta d g rp : ℝ) (h0 : 0 < theta) (h1 : theta < π / 2) (hg : 0 < g) (hr : 0 < rp)
    (hd : 0 < d) (hd1 : d < π * rp) :
    ballisticSpherical theta d g rp = .fin (sqrt (g * rp * tan (d / (2 * rp)) /
      (sin theta * cos theta + cos theta ^ 2 * tan (d / (2 * rp))))) := by
  obtain ⟨p0, p1⟩ := phi_range d rp hr hd.le hd1
  have hs : 0 < sin theta := sin_pos_of_pos_of_lt_pi h0 (by linarith)
  have hc : 0 < cos theta := cos_pos_of_mem_Ioo ⟨by linarith, h1⟩
  have ht : 0 ≤ tan (d / (2 * rp)) := tan_nonneg_of_nonneg_of_le_pi_div_two p0 p1.le
  have hdn : 0 < sin theta * cos theta + cos theta ^ 2 * tan (d / (2 * rp)) := by positivity
  unfold ballisticSpherical npDiv
  simp only []
  rw [if_neg hdn.ne']
  simp only [Flt.sqrt]
  rw [if_neg (not_lt.2 (by positivity))]

/-- **C123** The notebook's speed over a sphere is that of the package for the same gravity and radius. -/
theorem C123_package (dist g rp angle : ℝ) :
    ballisticVelocity dist g rp angle = ballisticSpherical (angle * π / 180) dist g rp := by
  rw [show angle * π / 180 = deg2rad angle by unfold deg2rad; ring]
  rfl

/-- **C123** At 45 degrees or less the planar speed is too high over every distance short of half the
circumference, and the excess of its square is at most the fraction `cot θ tan (d / 2 rp)`, so it vanishes for
short distances. -/
theorem C123_planar (theta d g rp : ℝ) (h0 : 0 < theta) (h1 : theta ≤ π / 4) (hg : 0 < g) (hr : 0 < rp)
    (hd : 0 < d) (hd1 : d < π * rp) :
    ∃ p s, ballisticPlanar theta d g = .fin p ∧ ballisticSpherical theta d g rp = .fin s ∧ 0 < s ∧ s < p ∧
      p ^ 2 ≤ s ^ 2 * (1 + cos theta / sin theta * tan (d / (2 * rp))) := by
  have hp := pi_pos
  obtain ⟨p0, p1⟩ := phi_range d rp hr hd.le hd1
  have p0 : 0 < d / (2 * rp) := by positivity
  have hs : 0 < sin theta := sin_pos_of_pos_of_lt_pi h0 (by linarith)
  have hc : 0 < cos theta := cos_pos_of_mem_Ioo ⟨by linarith, by linarith⟩
  have hsc : sin theta ≤ cos theta := by
    rw [← sin_pi_div_two_sub]
    exact sin_le_sin_of_le_of_le_pi_div_two (by linarith) (by linarith) (by linarith)
  rw [planar_fin theta d g h0 (by linarith) hd hg, spherical_fin theta d g rp h0 (by linarith) hg hr hd hd1]
  refine ⟨_, _, rfl, rfl, ?_, ?_, ?_⟩
  all_goals
    have ht : 0 < tan (d / (2 * rp)) := tan_pos_of_pos_of_lt_pi_div_two p0 p1
  · positivity
  · apply sqrt_lt_sqrt (by positivity)
    rw [sin_two_mul, div_lt_div_iff₀ (by positivity) (by positivity)]
    -- with `φ = d / 2 rp`: `tan φ sin θ < φ (sin θ + cos θ tan φ)`
    have key : tan (d / (2 * rp)) * sin theta < d / (2 * rp) * (sin theta + cos theta * tan (d / (2 * rp))) := by
      generalize d / (2 * rp) = x at *
      have hcx : 0 < cos x := cos_pos_of_mem_Ioo ⟨by linarith, p1⟩
      have hsx : 0 < sin x := sin_pos_of_pos_of_lt_pi p0 (by linarith)
      have e : tan x * cos x = sin x := tan_mul_cos hcx.ne'
      have e1 : 1 < sin x + cos x := by nlinarith [sin_sq_add_cos_sq x, mul_pos hsx hcx]
      have e2 : sin x < x := sin_lt p0
      apply lt_of_mul_lt_mul_right _ hcx.le
      have : tan x * sin theta * cos x = sin x * sin theta := by linear_combination sin theta * e
      rw [this]
      have : x * (sin theta + cos theta * tan x) * cos x = x * (sin theta * cos x + cos theta * sin x) := by
        linear_combination x * cos theta * e
      rw [this]
      have a1 : sin theta * sin x ≤ cos theta * sin x := mul_le_mul_of_nonneg_right hsc hsx.le
      have a2 : sin theta * 1 < sin theta * (sin x + cos x) := mul_lt_mul_of_pos_left e1 hs
      calc sin x * sin theta < x * sin theta := mul_lt_mul_of_pos_right e2 hs
        _ ≤ x * (sin theta * cos x + cos theta * sin x) := mul_le_mul_of_nonneg_left (by linarith) p0.le
    have hdx : d = 2 * rp * (d / (2 * rp)) := by field_simp
    generalize d / (2 * rp) = x at *
    generalize tan x = t at *
    subst hdx
    have := mul_lt_mul_of_pos_left key (show 0 < 2 * g * rp * cos theta by positivity)
    nlinarith
  · rw [sq_sqrt (by
      have : 0 < sin (2 * theta) := sin_pos_of_pos_of_lt_pi (by linarith) (by linarith)
      positivity), sq_sqrt (by positivity), sin_two_mul]
    have hle : d / (2 * rp) ≤ tan (d / (2 * rp)) := (lt_tan p0 p1).le
    have e : g * rp * tan (d / (2 * rp)) / (sin theta * cos theta + cos theta ^ 2 * tan (d / (2 * rp))) *
        (1 + cos theta / sin theta * tan (d / (2 * rp))) = g * rp * tan (d / (2 * rp)) / (sin theta * cos theta) := by
      generalize tan (d / (2 * rp)) = t at *
      have : sin theta * cos theta + cos theta ^ 2 * t ≠ 0 := by positivity
      have : sin theta + cos theta * t ≠ 0 := by positivity
      field_simp
    rw [e, div_le_div_iff₀ (by positivity) (by positivity)]
    have hdx : d = 2 * rp * (d / (2 * rp)) := by field_simp
    generalize d / (2 * rp) = x at *
    generalize tan x = t at *
    subst hdx
    have := mul_le_mul_of_nonneg_left hle (show 0 ≤ 2 * g * rp * (sin theta * cos theta) by positivity)
    nlinarith

theorem nb_theta : nbTheta = π / 4 := by unfold nbTheta deg2rad; ring

theorem kmph (v : ℝ) : mps2kmph (.fin v) = .fin (3.6 * v) := by
  unfold mps2kmph
  simp only [Flt.smul]
  congr 1
  ring

theorem planar_kmph (d : ℝ) (hd : 0 < d) : mps2kmph (ballisticPlanar nbTheta d nbG) = .fin (3.6 * sqrt (d * 1.624)) := by
  have hp := pi_pos
  rw [nb_theta, planar_fin _ _ _ (by linarith) (by linarith) hd (by unfold nbG; norm_num), kmph,
    show 2 * (π / 4) = π / 2 by ring, sin_pi_div_two, div_one]
  rfl

theorem spherical_kmph (d : ℝ) (hd : 0 < d) (hd1 : d < π * 1737000) :
    mps2kmph (ballisticSpherical nbTheta d nbG nbR) = .fin (3.6 * sqrt (2 * 1.624 * 1737000 *
      (sin (d / 3474000) / (sin (d / 3474000) + cos (d / 3474000))))) := by
  have hp := pi_pos
  have hR : nbR = 1737000 := by unfold nbR; norm_num
  obtain ⟨p0, p1⟩ := phi_range d 1737000 (by norm_num) hd.le hd1
  rw [nb_theta, hR, spherical_fin _ _ _ _ (by linarith) (by linarith) (by unfold nbG; norm_num) (by norm_num) hd hd1,
    kmph, sin_pi_div_four, cos_pi_div_four]
  rw [show (2 : ℝ) * 1737000 = 3474000 by norm_num] at *
  generalize hx : d / 3474000 = x at *
  have hc : 0 < cos x := cos_pos_of_mem_Ioo ⟨by linarith, p1⟩
  have hs : 0 ≤ sin x := sin_nonneg_of_nonneg_of_le_pi p0 (by linarith)
  have e : tan x = sin x / cos x := tan_eq_sin_div_cos x
  have h2 : √2 / 2 * (√2 / 2) = 1 / 2 := by
    rw [div_mul_div_comm, mul_self_sqrt (by norm_num)]; norm_num
  rw [h2, pow_two, h2, e]
  unfold nbG
  congr 4
  have : cos x + sin x ≠ 0 := by positivity
  field_simp
  ring

/-- A bound on a speed from bounds on its square. -/
theorem kmph_near {X v e : ℝ} (hX : 0 ≤ X) (he : e < v) (h1 : (v - e) ^ 2 < 12.96 * X) (h2 : 12.96 * X < (v + e) ^ 2)
    (he0 : 0 < e) : |3.6 * sqrt X - v| < e := by
  have hs := sq_sqrt hX
  have hn := sqrt_nonneg X
  rw [abs_lt]
  constructor
  · have : v - e < 3.6 * sqrt X := by
      apply lt_of_pow_lt_pow_left₀ 2 (by positivity)
      rw [mul_pow, hs]; linarith
    linarith
  · have : 3.6 * sqrt X < v + e := by
      apply lt_of_pow_lt_pow_left₀ 2 (by linarith)
      rw [mul_pow, hs]; linarith
    linarith

theorem spherical_near (x v e : ℝ) (hx0 : 0 < x) (hx : x ≤ 1) (he : e < v) (he0 : 0 < e)
    (h1 : (v - e) ^ 2 * (1 - x ^ 2 / 2 + x ^ 4 * (5 / 96)) <
      (12.96 * (2 * 1.624 * 1737000) - (v - e) ^ 2) * (x - x ^ 3 / 6 - x ^ 5 / 100))
    (h2 : (12.96 * (2 * 1.624 * 1737000) - (v + e) ^ 2) * (x - x ^ 3 / 6 + x ^ 5 / 100) <
      (v + e) ^ 2 * (1 - x ^ 2 / 2 - x ^ 4 * (5 / 96)))
    (h3 : (v + e) ^ 2 ≤ 12.96 * (2 * 1.624 * 1737000)) :
    |3.6 * sqrt (2 * 1.624 * 1737000 * (sin x / (sin x + cos x))) - v| < e := by
  have hp := pi_gt_three
  have hs : 0 < sin x := sin_pos_of_pos_of_lt_pi hx0 (by linarith)
  have hc : 0 < cos x := cos_pos_of_mem_Ioo ⟨by linarith, by linarith⟩
  have hax : |x| = x := abs_of_pos hx0
  have b1 := Real.sin_bound (x := x) (by rw [hax]; exact hx)
  have b2 := Real.cos_bound (x := x) (by rw [hax]; exact hx)
  rw [hax, abs_le] at b1 b2
  have hle : (v - e) ^ 2 ≤ (v + e) ^ 2 := by nlinarith
  have hpos : 0 < sin x + cos x := by positivity
  refine kmph_near (by positivity) he ?_ ?_ he0
  · rw [← mul_assoc, mul_div_assoc', lt_div_iff₀ hpos]
    have w1 := mul_le_mul_of_nonneg_left (show cos x ≤ 1 - x ^ 2 / 2 + x ^ 4 * (5 / 96) by linarith [b2.2]) (sq_nonneg (v - e))
    have w2 := mul_le_mul_of_nonneg_left (show x - x ^ 3 / 6 - x ^ 5 / 100 ≤ sin x by linarith [b1.1])
      (show 0 ≤ 12.96 * (2 * 1.624 * 1737000) - (v - e) ^ 2 by linarith)
    linarith
  · rw [← mul_assoc, mul_div_assoc', div_lt_iff₀ hpos]
    have w1 := mul_le_mul_of_nonneg_left (show 1 - x ^ 2 / 2 - x ^ 4 * (5 / 96) ≤ cos x by linarith [b2.1]) (sq_nonneg (v + e))
    have w2 := mul_le_mul_of_nonneg_left (show sin x ≤ x - x ^ 3 / 6 + x ^ 5 / 100 by linarith [b1.2])
      (show 0 ≤ 12.96 * (2 * 1.624 * 1737000) - (v + e) ^ 2 by linarith)
    linarith

/-- **C123** The functions give the speeds quoted in the notebook: 770 to 920 km/h over 28 to 40 km and
2750 to 2860 km/h over 400 to 435 km. -/
theorem C123_quoted :
    (∃ v, mps2kmph (ballisticPlanar nbTheta 28000 nbG) = .fin v ∧ |v - 770| < 3) ∧
    (∃ v, mps2kmph (ballisticPlanar nbTheta 40000 nbG) = .fin v ∧ |v - 920| < 3) ∧
    (∃ v, mps2kmph (ballisticSpherical nbTheta 400000 nbG nbR) = .fin v ∧ |v - 2750| < 4) ∧
    ∃ v, mps2kmph (ballisticSpherical nbTheta 435000 nbG nbR) = .fin v ∧ |v - 2860| < 4 := by
  have hp := pi_gt_three
  refine ⟨⟨_, planar_kmph _ (by norm_num), kmph_near (by norm_num) (by norm_num) (by norm_num) (by norm_num) (by norm_num)⟩,
    ⟨_, planar_kmph _ (by norm_num), kmph_near (by norm_num) (by norm_num) (by norm_num) (by norm_num) (by norm_num)⟩,
    ⟨_, spherical_kmph _ (by norm_num) (by linarith), spherical_near _ _ _ (by norm_num) (by norm_num) (by norm_num)
      (by norm_num) (by norm_num) (by norm_num) (by norm_num)⟩,
    ⟨_, spherical_kmph _ (by norm_num) (by linarith), spherical_near _ _ _ (by norm_num) (by norm_num) (by norm_num)
      (by norm_num) (by norm_num) (by norm_num) (by norm_num)⟩⟩

theorem nbDist_get (i : Nat) (hi : i < 440) : nbDist[i]? = some (((10 + i : ℕ) : ℝ) * 1000) := by
  unfold nbDist
  rw [List.getElem?_map, List.getElem?_range hi]
  rfl

/-- **C123** (full claim: the notebook prints the speeds over 28, 40, 400 and 435 km, which is false,
`C123_printed_refuted`.)  Each printed speed is the speed over the printed distance. -/
theorem C123_printed_partial : nbPrinted = .ok
    ([(38, .fin (kmhPlanar 38)), (50, .fin (kmhPlanar 50))],
      [(410, .fin (kmhSphere 410)), (445, .fin (kmhSphere 445))]) := by
  have hp := pi_gt_three
  have k : ∀ i : Nat, i < 440 → pyGet (nbDist.map (· / 1000)) i = .ok ((10 + i : ℕ) : ℝ) := by
    intro i hi
    unfold pyGet
    rw [List.getElem?_map, nbDist_get i hi]
    simp
  have p : ∀ i : Nat, i < 440 → pyGet nbPlanar i = .ok (.fin (3.6 * sqrt (((10 + i : ℕ) : ℝ) * 1000 * 1.624))) := by
    intro i hi
    unfold pyGet nbPlanar
    rw [List.getElem?_map, nbDist_get i hi]
    simp only [Option.map_some]
    rw [planar_kmph _ (by positivity)]
  have s : ∀ i : Nat, i < 440 → pyGet nbSpherical i = .ok (.fin (3.6 * sqrt (2 * 1.624 * 1737000 *
      (sin (((10 + i : ℕ) : ℝ) * 1000 / 3474000) / (sin (((10 + i : ℕ) : ℝ) * 1000 / 3474000) +
        cos (((10 + i : ℕ) : ℝ) * 1000 / 3474000)))))) := by
    intro i hi
    unfold pyGet nbSpherical
    rw [List.getElem?_map, nbDist_get i hi]
    simp only [Option.map_some]
    have : ((10 + i : ℕ) : ℝ) < 450 := by exact_mod_cast (by omega : 10 + i < 450)
    rw [spherical_kmph _ (by positivity) (by linarith)]
  unfold nbPrinted kmhPlanar kmhSphere
  simp only [List.mapM_cons, List.mapM_nil, k 28 (by norm_num), k 40 (by norm_num), k 400 (by norm_num), k 435 (by norm_num),
    p 28 (by norm_num), p 40 (by norm_num), s 400 (by norm_num), s 435 (by norm_num), bind, Except.bind, pure, Except.pure]
  norm_num

/-- **C123** No speed over 28, 40, 400 or 435 km is printed: the numbers are taken for indices of arrays that
begin at 10 km. -/
theorem C123_printed_refuted : ∃ planar spherical, nbPrinted = .ok (planar, spherical) ∧
    planar.length = 2 ∧ spherical.length = 2 ∧
    ∀ p ∈ planar ++ spherical, p.1 ≠ 28 ∧ p.1 ≠ 40 ∧ p.1 ≠ 400 ∧ p.1 ≠ 435 := by
  refine ⟨_, _, C123_printed_partial, rfl, rfl, ?_⟩
  intro p hp
  simp only [List.cons_append, List.nil_append, List.mem_cons, List.not_mem_nil, or_false] at hp
  rcases hp with rfl | rfl | rfl | rfl <;> norm_num

/-- Spec: kinetic energy per square metre of the ejecta at distance `y` from the centre of a crater of radius `R`:
a layer of the notebook's thickness and density at the speed with range `y` at 45 degrees. -/
def Spec.EnergyAt (R y e : ℝ) : Prop :=
  ∃ v, tan (y / (2 * 1737000)) * (1.624 * 1737000 - v ^ 2 / 2) = v ^ 2 / 2 ∧
    e = 1 / 2 * (1500 * (0.14 * R ^ (0.74 : ℝ) * (R / y) ^ 3)) * v ^ 2

theorem spherical_sq (d : ℝ) (hd : 0 < d) (hd1 : d < π * 1737000) :
    ∃ v, ballisticSpherical nbTheta d nbG nbR = .fin v ∧
      tan (d / (2 * 1737000)) * (1.624 * 1737000 - v ^ 2 / 2) = v ^ 2 / 2 := by
  have hp := pi_pos
  have hR : nbR = 1737000 := by unfold nbR; norm_num
  have e := C123_package d nbG nbR 45
  rw [show (45 : ℝ) * π / 180 = nbTheta by rw [nb_theta]; ring] at e
  obtain ⟨v, h1, -, -⟩ := C52_bound d nbG nbR 45 (by unfold nbG; norm_num) (by rw [hR]; norm_num) (by norm_num) (by norm_num) hd
    (by rw [hR]; exact hd1)
  refine ⟨v, e ▸ h1, ?_⟩
  have := C52_flight_equation d nbG nbR 45 v (by unfold nbG; norm_num) (by rw [hR]; norm_num) (by norm_num) (by norm_num) hd.le
    (by rw [hR]; exact hd1) h1
  have h2 : √2 / 2 * (√2 / 2) = 1 / 2 := by
    rw [div_mul_div_comm, mul_self_sqrt (by norm_num)]; norm_num
  rw [show (45 : ℝ) * π / 180 = π / 4 by ring, sin_pi_div_four, cos_pi_div_four, pow_two (√2 / 2), h2, hR] at this
  unfold nbG at this
  linear_combination this

/-- **C123** (full claim: the curves of kinetic energy show the energy at their abscissae; false.)  The speeds belong
to distances from 10 to 449 km and the thicknesses to distances from one to four radii: of the 440 points of a
curve at most one shows the energy at its abscissa. -/
theorem C123_energy_refuted (R : ℝ) (hR : 0 < R) (hR4 : 4 * R < π * 1737000) :
    ∃ curve, nbEnergy R = .ok curve ∧ curve.length = 440 ∧
      (∀ (i : Nat) p, curve[i]? = some p → p.1 = 1 + i * (3 / 439)) ∧
      ∀ (i j : Nat) p q e f, curve[i]? = some p → curve[j]? = some q → p.2 = .fin e → q.2 = .fin f →
        EnergyAt R (p.1 * R) e → EnergyAt R (q.1 * R) f → i = j := by
  have hp := pi_gt_three
  have hlin := linspace_eq (1 * R) (4 * R) 440 (by norm_num)
  obtain ⟨xs, hxs⟩ : ∃ t, t = (List.range 440).map
      (fun i : Nat => 1 * R + (i : ℝ) * ((4 * R - 1 * R) / (((440 : Nat) : ℝ) - 1))) := ⟨_, rfl⟩
  rw [← hxs] at hlin
  have hx : ∀ i : Nat, i < 440 → xs[i]? = some (R + i * (3 * R / 439)) := by
    intro i hi
    rw [hxs, List.getElem?_map, List.getElem?_range hi]
    simp only [Option.map_some]
    congr 1
    push_cast
    ring
  have hxl : xs.length = 440 := by rw [hxs]; simp
  have hdl : nbDist.length = 440 := by unfold nbDist; simp
  refine ⟨_, by unfold nbEnergy; rw [show (440 : Int) = ((440 : Nat) : Int) from rfl, hlin]; rfl, ?_, ?_, ?_⟩
  · rw [List.length_zipWith, hxl, hdl]; rfl
  · intro i p h
    rw [List.getElem?_zipWith] at h
    by_cases hi : i < 440
    · rw [nbDist_get i hi, hx i hi] at h
      injection h with h
      subst h
      simp only []
      field_simp
    · rw [List.getElem?_eq_none (by omega : nbDist.length ≤ i)] at h
      cases h
  · have point : ∀ (i : Nat) p e, (List.zipWith (fun d y => (y / R,
        mps2KE (ballisticSpherical nbTheta d nbG nbR) (thick2mass (nbThickness y R)))) nbDist xs)[i]? = some p →
        p.2 = .fin e → EnergyAt R (p.1 * R) e → ((10 + i : ℕ) : ℝ) * 1000 = R + i * (3 * R / 439) := by
      intro i p e h he hE
      rw [List.getElem?_zipWith] at h
      by_cases hi : i < 440
      · rw [nbDist_get i hi, hx i hi] at h
        injection h with h
        subst h
        simp only [] at he hE
        rw [div_mul_cancel₀ _ hR.ne'] at hE
        obtain ⟨v, hv1, hv2⟩ := hE
        have hi' : (i : ℝ) ≤ 439 := by exact_mod_cast (by omega : i ≤ 439)
        have hy0 : 0 < R + i * (3 * R / 439) := by positivity
        have hy1 : R + i * (3 * R / 439) ≤ 4 * R := by
          have := mul_le_mul_of_nonneg_right hi' (show 0 ≤ 3 * R / 439 by positivity)
          linarith
        have hd0 : (0 : ℝ) < ((10 + i : ℕ) : ℝ) * 1000 := by positivity
        have hd1 : ((10 + i : ℕ) : ℝ) * 1000 < π * 1737000 := by
          have : ((10 + i : ℕ) : ℝ) ≤ 449 := by push_cast; linarith
          linarith
        obtain ⟨w, hw, hw2⟩ := spherical_sq _ hd0 hd1
        generalize hd : ((10 + i : ℕ) : ℝ) * 1000 = d at *
        generalize R + i * (3 * R / 439) = y at *
        rw [hw] at he
        -- the thickness
        have hth : nbThickness y R = .fin (0.14 * R ^ (0.74 : ℝ) * (R / y) ^ 3) := by
          unfold nbThickness npPow
          have hyR : 0 < y / R := by positivity
          rw [if_neg hR.ne', if_neg (not_lt.2 hyR.le), if_neg (fun h => hyR.ne' h.1)]
          simp only [Flt.smul]
          congr 2
          rw [show (-3 : ℝ) = -((3 : ℕ) : ℝ) by norm_num, rpow_neg hyR.le, rpow_natCast, ← inv_pow, inv_div]
        rw [hth] at he
        simp only [thick2mass, mps2KE, Flt.smul, Flt.mul, Flt.fin.injEq] at he
        have hk : 0 < 0.14 * R ^ (0.74 : ℝ) * (R / y) ^ 3 := by positivity
        generalize 0.14 * R ^ (0.74 : ℝ) * (R / y) ^ 3 = k at *
        have hvw : w ^ 2 = v ^ 2 := by
          have : 750 * k * w ^ 2 = 750 * k * v ^ 2 := by linear_combination he + hv2
          exact mul_left_cancel₀ (by positivity) this
        rw [hvw] at hw2
        obtain ⟨a0, a1⟩ := phi_range d 1737000 (by norm_num) hd0.le hd1
        obtain ⟨b0, b1⟩ := phi_range y 1737000 (by norm_num) hy0.le (by linarith)
        have ht : tan (d / (2 * 1737000)) = tan (y / (2 * 1737000)) := by
          have hne : 1.624 * 1737000 - v ^ 2 / 2 ≠ 0 := by
            intro hz
            rw [hz, mul_zero] at hw2
            have : (1.624 * 1737000 : ℝ) = 0 := by linarith
            norm_num at this
          exact mul_right_cancel₀ hne (hw2.trans hv1.symm)
        have hinj := injOn_tan ⟨by linarith, a1⟩ ⟨by linarith, b1⟩ ht
        have : d = y := by
          have e1 : d = d / (2 * 1737000) * (2 * 1737000) := by ring
          rw [e1, hinj]; ring
        exact this
      · rw [List.getElem?_eq_none (by omega : nbDist.length ≤ i)] at h
        cases h
    intro i j p q e f h1 h2 h3 h4 h5 h6
    have k1 := point i p e h1 h3 h5
    have k2 := point j q f h2 h4 h6
    push_cast at k1 k2
    by_contra hne
    have hij : (i : ℝ) - j ≠ 0 := sub_ne_zero.2 (by exact_mod_cast hne)
    have : ((i : ℝ) - j) * (1000 - 3 * R / 439) = 0 := by linear_combination k1 - k2
    have hz : 1000 - 3 * R / 439 = 0 := (mul_eq_zero.1 this).resolve_left hij
    have hR2 : R = 10000 := by linear_combination -k1 + i * hz
    rw [hR2] at hz
    norm_num at hz

/-- Shackleton, 21 km across. -/
example : (0 : ℝ) < 10500 ∧ 4 * 10500 < π * 1737000 := ⟨by norm_num, by linarith [pi_gt_three]⟩

/-- 100 km on the Moon at 45 degrees. -/
example : ∃ p s, ballisticPlanar (π / 4) 100000 1.62 = .fin p ∧
    ballisticSpherical (π / 4) 100000 1.62 1737400 = .fin s ∧ s < p := by
  obtain ⟨p, s, h1, h2, -, h3, -⟩ := C123_planar (π / 4) 100000 1.62 1737400 (by positivity) le_rfl (by norm_num)
    (by norm_num) (by norm_num) (by linarith [pi_gt_three])
  exact ⟨p, s, h1, h2, h3⟩

end MoonPIES
