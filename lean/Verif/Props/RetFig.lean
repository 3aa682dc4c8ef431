import Verif.Model.RetFig
import Verif.Props.Retention

/-!
# C106: the figure of ice retention
-/

namespace MoonPIES

/-- Bounds on the power law from integer powers. -/
theorem pow416_gt (x b : ℝ) (hx : 0 ≤ x) (h : b ^ 25 < x ^ 104) : b < x ^ (4.16 : ℝ) := by
  apply lt_of_pow_lt_pow_left₀ 25 (by positivity)
  rw [← Real.rpow_mul_natCast hx, show (4.16 : ℝ) * ((25 : ℕ) : ℝ) = ((104 : ℕ) : ℝ) by norm_num,
    Real.rpow_natCast]
  exact h

theorem pow416_lt (x b : ℝ) (hx : 0 ≤ x) (hb : 0 ≤ b) (h : x ^ 104 < b ^ 25) : x ^ (4.16 : ℝ) < b := by
  apply lt_of_pow_lt_pow_left₀ 25 hb
  rw [← Real.rpow_mul_natCast hx, show (4.16 : ℝ) * ((25 : ℕ) : ℝ) = ((104 : ℕ) : ℝ) by norm_num,
    Real.rpow_natCast]
  exact h

theorem fit_bounds (c : Bool) (v lo hi : ℝ) (hv : 10 ≤ v) (h1 : 0 < lo) (h2 : lo ^ 25 < v ^ 104)
    (h3 : v ^ 104 < hi ^ 25) (h4 : 0 < hi) :
    16600 / hi < iceRetention "moonpies" c (v * 1e3) ∧ iceRetention "moonpies" c (v * 1e3) < 16600 / lo := by
  rw [moonpies_fast c (v * 1e3) (by norm_num; linarith), show v * 1e3 / 1000 = v by norm_num]
  have a := pow416_gt v lo (by linarith) h2
  have b := pow416_lt v hi (by linarith) h4.le h3
  exact ⟨div_lt_div_of_pos_left (by norm_num) (h1.trans a) b, div_lt_div_of_pos_left (by norm_num) h1 a⟩

/-- **C106** the curves: 7000 speeds from 0 to 70 km/s, each with the fraction a run retains at that
speed. -/
theorem C106_curves : ∃ F, retFigure = .ok F ∧
    F.map (·.1) = ["Cannon et al. (2020)", "This work, asteroid", "This work, comet", "Ong et al. (2010)"] ∧
    ∀ c ∈ [("Cannon et al. (2020)", "cannon", false), ("This work, asteroid", "moonpies", false),
      ("This work, comet", "moonpies", true)], ∃ pts, (c.1, pts) ∈ F ∧ pts.length = 7000 ∧
      (∀ (i : Nat) p, pts[i]? = some p → p.1 = 70 * i / 6999 ∧
        p.2 = iceRetention c.2.1 c.2.2 (1000 * p.1)) := by
  have ht : ((7000 : Int).toNat) = 7000 := rfl
  refine ⟨_, by unfold retFigure linspace; rw [if_neg (by norm_num), if_neg (by norm_num)]; rfl, rfl, ?_⟩
  intro c hc
  refine ⟨_, List.mem_append_left _ (List.mem_map.2 ⟨c, hc, rfl⟩), ?_, ?_⟩
  · rw [List.length_map, List.length_map, List.length_range]; rfl
  · intro i p hp
    rw [List.getElem?_map, List.getElem?_map] at hp
    obtain ⟨x, hx, rfl⟩ := Option.map_eq_some_iff.1 hp
    obtain ⟨j, hj, rfl⟩ := Option.map_eq_some_iff.1 hx
    obtain ⟨hj1, hj2⟩ := List.getElem?_eq_some_iff.1 hj
    rw [List.getElem_range] at hj2
    subst hj2
    refine ⟨?_, ?_⟩
    · simp only
      rw [ht]
      norm_num
      ring
    · change iceRetention _ _ (_ * 1e3) = iceRetention _ _ (1000 * _)
      rw [show (1e3 : ℝ) = 1000 by norm_num, mul_comm]

/-- **C106** the full claim would be that the law of this work fits all data shown.  Proved up to
45 km/s, within 20 %; missing: 60 km/s, see `C106_fit_refuted`. -/
theorem C106_fit_partial (c : Bool) : ∀ p ∈ ongData, p.1 ≤ 45 →
    |iceRetention "moonpies" c ((p.1 : ℝ) * 1e3) - p.2| ≤ 0.2 * (p.2 : ℝ) := by
  intro p hp hle
  simp only [ongData, List.mem_cons, List.not_mem_nil, or_false] at hp
  rcases hp with rfl | rfl | rfl | rfl | rfl
  · obtain ⟨a, b⟩ := fit_bounds c 10 14400 16600 (by norm_num) (by norm_num) (by norm_num) (by norm_num) (by norm_num)
    norm_num at a b ⊢
    rw [abs_le]; constructor <;> linarith
  · obtain ⟨a, b⟩ := fit_bounds c 15 76000 80000 (by norm_num) (by norm_num) (by norm_num) (by norm_num) (by norm_num)
    norm_num at a b ⊢
    rw [abs_le]; constructor <;> linarith
  · obtain ⟨a, b⟩ := fit_bounds c 30 1390000 1400000 (by norm_num) (by norm_num) (by norm_num) (by norm_num) (by norm_num)
    norm_num at a b ⊢
    rw [abs_le]; constructor <;> linarith
  · obtain ⟨a, b⟩ := fit_bounds c 45 7500000 7600000 (by norm_num) (by norm_num) (by norm_num) (by norm_num) (by norm_num)
    norm_num at a b ⊢
    rw [abs_le]; constructor <;> linarith
  · norm_num at hle

/-- **C106** at 60 km/s the law retains more than 100 times the fraction of Ong et al. -/
theorem C106_fit_refuted (c : Bool) : ∃ p ∈ ongData, 100 * (p.2 : ℝ) < iceRetention "moonpies" c ((p.1 : ℝ) * 1e3) := by
  refine ⟨(60, 6.60e-6), by simp [ongData], ?_⟩
  obtain ⟨a, b⟩ := fit_bounds c 60 24000000 25000000 (by norm_num) (by norm_num) (by norm_num) (by norm_num) (by norm_num)
  norm_num at a b ⊢
  linarith

/-- **C106** above 45 km/s less than a quarter of a percent is retained, in either mode. -/
theorem C106_negligible (mode : String) (hm : mode = "cannon" ∨ mode = "moonpies") (c : Bool) (v : ℝ)
    (hv : 45 ≤ v) : iceRetention mode c (v * 1e3) < 0.0025 := by
  rcases hm with rfl | rfl
  · rw [cannon_fast c (v * 1e3) (by norm_num; linarith), Real.exp_neg]
    have h1 : (15000 : ℝ) < Real.exp (0.3464 * (v * 1e3 / 1000)) := by
      refine lt_of_lt_of_le ?_ (Real.exp_le_exp.2 (show (15 : ℝ) ≤ _ by norm_num; linarith))
      exact exp_gt_of 15 15000 1 15 (by norm_num) (by norm_num)
    have h2 : (Real.exp (0.3464 * (v * 1e3 / 1000)))⁻¹ < 15000⁻¹ := inv_strictAnti₀ (by norm_num) h1
    norm_num at h2 ⊢
    linarith
  · rw [moonpies_fast c (v * 1e3) (by norm_num; linarith), show v * 1e3 / 1000 = v by norm_num]
    have h1 := pow416_gt 45 7500000 (by norm_num) (by norm_num)
    have h2 : (45 : ℝ) ^ (4.16 : ℝ) ≤ v ^ (4.16 : ℝ) := Real.rpow_le_rpow (by norm_num) hv (by norm_num)
    rw [div_lt_iff₀ (by linarith)]
    norm_num at h1 h2 ⊢
    linarith

/-- **C106** the curves for asteroids and comets are one from 10 km/s on, and fall. -/
theorem C106_falls (c c' : Bool) (v w : ℝ) (hv : 10 ≤ v) (hw : v < w) :
    iceRetention "moonpies" c (w * 1e3) < iceRetention "moonpies" c' (v * 1e3) ∧
    iceRetention "moonpies" c (v * 1e3) = iceRetention "moonpies" c' (v * 1e3) := by
  rw [moonpies_fast c (v * 1e3) (by norm_num; linarith), moonpies_fast c' (v * 1e3) (by norm_num; linarith),
    moonpies_fast c (w * 1e3) (by norm_num; linarith), show v * 1e3 / 1000 = v by norm_num,
    show w * 1e3 / 1000 = w by norm_num]
  refine ⟨?_, rfl⟩
  have h0 : 0 < v := by linarith
  exact div_lt_div_of_pos_left (by norm_num) (by positivity) (Real.rpow_lt_rpow h0.le hw (by norm_num))

example : ∃ p ∈ ongData, p.1 ≤ 45 ∧ p.2 < 1 := ⟨(15, 1.97e-1), by simp [ongData], by norm_num, by norm_num⟩

end MoonPIES
