import Verif.Model.Scaling
import Verif.Props.Transient

/-!
# C39: impactor size from crater size inverts the forward laws
-/

namespace MoonPIES

open Real

/-- Spec: the forward law of Collins et al. (2005), transient diameter from impactor
length. -/
noncomputable def collinsForward (L v rhoI rhoT g theta : ℝ) : ℝ :=
  1.161 * (rhoI / rhoT) ^ (1 / 3 : ℝ) * L ^ (0.78 : ℝ) * v ^ (0.44 : ℝ) * g ^ (-0.22 : ℝ) *
    sin (theta * π / 180) ^ (1 / 3 : ℝ)

/-- Spec: the forward law of Johnson et al. (2016), final diameter from impactor length. -/
noncomputable def johnsonForward (L v rhoI rhoT g theta ds2c : ℝ) : ℝ :=
  1.52 * (rhoI / rhoT) ^ (0.38 : ℝ) * L ^ (0.88 : ℝ) * v ^ (0.5 : ℝ) * g ^ (-0.25 : ℝ) *
    ds2c ^ (-0.13 : ℝ) * sin (theta * π / 180) ^ (0.38 : ℝ)

theorem sin_deg_pos (theta : ℝ) (h0 : 0 < theta) (h1 : theta < 180) :
    0 < sin (deg2rad theta) := by
  have hp := pi_pos
  apply sin_pos_of_pos_of_lt_pi
  · unfold deg2rad; positivity
  · unfold deg2rad; nlinarith

theorem deg_eq (theta : ℝ) : theta * π / 180 = deg2rad theta := by unfold deg2rad; ring

/-- **C39** Collins: positive, and the forward law gives the diameter back. -/
theorem C39_collins_inverse (t v rhoI rhoT g theta : ℝ) (ht : 0 < t) (hv : 0 < v) (hi : 0 < rhoI)
    (hr : 0 < rhoT) (hg : 0 < g) (h0 : 0 < theta) (h1 : theta < 180) :
    0 < diam2lenCollins t v rhoI rhoT g theta ∧
    collinsForward (diam2lenCollins t v rhoI rhoT g theta) v rhoI rhoT g theta = t := by
  have hs := sin_deg_pos theta h0 h1
  unfold diam2lenCollins collinsForward
  simp only [deg_eq]
  constructor
  · positivity
  · rw [← rpow_mul (by positivity)]
    have e : (1 / 0.78 : ℝ) * 0.78 = 1 := by norm_num
    rw [e, rpow_one]
    field_simp

/-- **C39** Johnson: positive, and the forward law gives the diameter back. -/
theorem C39_johnson_inverse (d v rhoI rhoT g theta ds2c : ℝ) (hd : 0 < d) (hv : 0 < v)
    (hi : 0 < rhoI) (hr : 0 < rhoT) (hg : 0 < g) (hc : 0 < ds2c) (h0 : 0 < theta)
    (h1 : theta < 180) :
    0 < diam2lenJohnson d v rhoI rhoT g theta ds2c ∧
    johnsonForward (diam2lenJohnson d v rhoI rhoT g theta ds2c) v rhoI rhoT g theta ds2c = d := by
  have hs := sin_deg_pos theta h0 h1
  unfold diam2lenJohnson johnsonForward
  simp only [deg_eq]
  constructor
  · positivity
  · rw [← rpow_mul (by positivity)]
    have e : (1 / 0.88 : ℝ) * 0.88 = 1 := by norm_num
    rw [e, rpow_one]
    field_simp

/-- **C39** the returned length is the only positive one with that crater (Collins). -/
theorem C39_collins_unique (L v rhoI rhoT g theta : ℝ) (hL : 0 < L) (hv : 0 < v) (hi : 0 < rhoI)
    (hr : 0 < rhoT) (hg : 0 < g) (h0 : 0 < theta) (h1 : theta < 180) :
    diam2lenCollins (collinsForward L v rhoI rhoT g theta) v rhoI rhoT g theta = L := by
  have hs := sin_deg_pos theta h0 h1
  unfold diam2lenCollins collinsForward
  simp only [deg_eq]
  have e : ∀ a b c d f : ℝ, a ≠ 0 → b ≠ 0 → c ≠ 0 → d ≠ 0 → f ≠ 0 →
      1.161 * a * f * b * c * d / (1.161 * a * b * c * d) = f := by
    intro a b c d f ha hb hc hd _; field_simp
  rw [e _ _ _ _ _ (by positivity) (by positivity) (by positivity) (by positivity) (by positivity),
    ← rpow_mul hL.le]
  have e : (0.78 : ℝ) * (1 / 0.78) = 1 := by norm_num
  rw [e, rpow_one]

/-- **C39** the returned length is the only positive one with that crater (Johnson). -/
theorem C39_johnson_unique (L v rhoI rhoT g theta ds2c : ℝ) (hL : 0 < L) (hv : 0 < v)
    (hi : 0 < rhoI) (hr : 0 < rhoT) (hg : 0 < g) (hc : 0 < ds2c) (h0 : 0 < theta)
    (h1 : theta < 180) :
    diam2lenJohnson (johnsonForward L v rhoI rhoT g theta ds2c) v rhoI rhoT g theta ds2c = L := by
  have hs := sin_deg_pos theta h0 h1
  unfold diam2lenJohnson johnsonForward
  simp only [deg_eq]
  have e : ∀ a b c d k f : ℝ, a ≠ 0 → b ≠ 0 → c ≠ 0 → d ≠ 0 → k ≠ 0 → f ≠ 0 →
      1.52 * a * f * b * c * d * k / (1.52 * a * b * c * d * k) = f := by
    intro a b c d k f ha hb hc hd hk _; field_simp
  rw [e _ _ _ _ _ _ (by positivity) (by positivity) (by positivity) (by positivity)
    (by positivity) (by positivity), ← rpow_mul hL.le]
  have e : (0.88 : ℝ) * (1 / 0.88) = 1 := by norm_num
  rw [e, rpow_one]

/-- **C39** strictly increasing in crater diameter and strictly decreasing in speed
(Collins). -/
theorem C39_collins_mono (t t' v v' rhoI rhoT g theta : ℝ) (ht : 0 < t) (hv : 0 < v)
    (hi : 0 < rhoI) (hr : 0 < rhoT) (hg : 0 < g) (h0 : 0 < theta) (h1 : theta < 180) :
    (t < t' → diam2lenCollins t v rhoI rhoT g theta < diam2lenCollins t' v rhoI rhoT g theta) ∧
    (v < v' → diam2lenCollins t v' rhoI rhoT g theta < diam2lenCollins t v rhoI rhoT g theta) := by
  have hs := sin_deg_pos theta h0 h1
  unfold diam2lenCollins
  simp only []
  constructor
  · intro h
    exact rpow_lt_rpow (by positivity) (div_lt_div_of_pos_right h (by positivity)) (by norm_num)
  · intro h
    have hv' : 0 < v' := hv.trans h
    apply rpow_lt_rpow (by positivity) _ (by norm_num)
    apply div_lt_div_of_pos_left ht (by positivity)
    have : v ^ (0.44 : ℝ) < v' ^ (0.44 : ℝ) := rpow_lt_rpow hv.le h (by norm_num)
    gcongr

/-- **C39** strictly increasing in crater diameter and strictly decreasing in speed
(Johnson). -/
theorem C39_johnson_mono (d d' v v' rhoI rhoT g theta ds2c : ℝ) (hd : 0 < d) (hv : 0 < v)
    (hi : 0 < rhoI) (hr : 0 < rhoT) (hg : 0 < g) (hc : 0 < ds2c) (h0 : 0 < theta)
    (h1 : theta < 180) :
    (d < d' → diam2lenJohnson d v rhoI rhoT g theta ds2c <
      diam2lenJohnson d' v rhoI rhoT g theta ds2c) ∧
    (v < v' → diam2lenJohnson d v' rhoI rhoT g theta ds2c <
      diam2lenJohnson d v rhoI rhoT g theta ds2c) := by
  have hs := sin_deg_pos theta h0 h1
  unfold diam2lenJohnson
  simp only []
  constructor
  · intro h
    exact rpow_lt_rpow (by positivity) (div_lt_div_of_pos_right h (by positivity)) (by norm_num)
  · intro h
    have hv' : 0 < v' := hv.trans h
    apply rpow_lt_rpow (by positivity) _ (by norm_num)
    apply div_lt_div_of_pos_left hd (by positivity)
    have : v ^ (0.5 : ℝ) < v' ^ (0.5 : ℝ) := rpow_lt_rpow hv.le h (by norm_num)
    gcongr

/-- **C39** an unknown regime is rejected. -/
theorem C39_unknown_regime (cfg : ScaleCfg) (d v : ℝ) (regime : String)
    (h : regime ∉ ["c", "d", "e", "f"]) : diam2lenOne cfg d v regime = .error .valueError := by
  simp only [List.mem_cons, List.not_mem_nil, not_or, or_false] at h
  unfold diam2lenOne
  simp only [h.1, h.2.1, h.2.2.1, h.2.2.2, if_false, or_self]

/-- **C39 (finding)** the Johnson law is for the final diameter, but `diam2len` passes
the transient one: in regimes `e` and `f` the forward law of the returned impactor gives
the transient diameter, strictly below the crater that was asked for. -/
theorem C39_diam2len_johnson_short (cfg : ScaleCfg) (d v : ℝ) (regime : String)
    (hreg : regime = "e" ∨ regime = "f") (hd : 0 < d) (hv : 0 < v) (hi : 0 < cfg.impactor_density)
    (hr : 0 < cfg.target_density) (hg : 0 < cfg.grav_moon) (h0 : 0 < cfg.impact_angle)
    (h1 : cfg.impact_angle < 180) (hc : 18000 ≤ cfg.simple2complex)
    (hp : 18700 ≤ cfg.complex2peakring) (hcp : cfg.simple2complex ≤ cfg.complex2peakring) :
    ∃ L, diam2lenOne cfg d v regime = .ok L ∧ 0 < L ∧
      johnsonForward L v cfg.impactor_density cfg.target_density cfg.grav_moon cfg.impact_angle
        cfg.simple2complex < d := by
  have ht := C38_transient_positive cfg.simple2complex cfg.complex2peakring d hd
  have hlt := C38_transient_lt_final cfg.simple2complex cfg.complex2peakring d hd hc hp hcp
  obtain ⟨hL, hF⟩ := C39_johnson_inverse _ v _ _ _ _ _ ht hv hi hr hg
    (show 0 < cfg.simple2complex by linarith) h0 h1
  refine ⟨_, ?_, hL, by rw [hF]; exact hlt⟩
  unfold diam2lenOne
  have hn : regime ≠ "c" ∧ regime ≠ "d" := by rcases hreg with rfl | rfl <;> decide
  simp only [hn.1, hn.2, if_false, if_pos hreg]

/-- The default configuration meets the hypotheses. -/
example : ∃ L, diam2lenOne ⟨1300, 1500, 1.62, 45, 18e3, 1.4e5⟩ 20000 20000 "e" = .ok L ∧ 0 < L ∧
    johnsonForward L 20000 1300 1500 1.62 45 18e3 < 20000 :=
  C39_diam2len_johnson_short ⟨1300, 1500, 1.62, 45, 18e3, 1.4e5⟩ 20000 20000 "e" (Or.inl rfl)
    (by norm_num) (by norm_num) (by norm_num) (by norm_num) (by norm_num) (by norm_num)
    (by norm_num) (by norm_num) (by norm_num) (by norm_num)

end MoonPIES
