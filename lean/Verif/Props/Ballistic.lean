import Verif.Model.Ejecta
import Mathlib.Tactic.Linarith
import Mathlib.Tactic.NormNum
import Mathlib.Tactic.Positivity
import Mathlib.Tactic.FieldSimp
import Mathlib.Analysis.SpecialFunctions.Trigonometric.Bounds

/-!
# C52: ballistic speed
-/

namespace MoonPIES

open Real

theorem angle_trig (angle : ℝ) (h0 : 0 < angle) (h1 : angle < 90) :
    0 < sin (deg2rad angle) ∧ 0 < cos (deg2rad angle) := by
  have hp := pi_pos
  have a1 : 0 < deg2rad angle := by unfold deg2rad; positivity
  have a2 : deg2rad angle < π / 2 := by unfold deg2rad; nlinarith
  exact ⟨sin_pos_of_pos_of_lt_pi a1 (by linarith), cos_pos_of_mem_Ioo ⟨by linarith, a2⟩⟩

theorem phi_range (dist rp : ℝ) (hr : 0 < rp) (h0 : 0 ≤ dist) (h1 : dist < π * rp) :
    0 ≤ dist / (2 * rp) ∧ dist / (2 * rp) < π / 2 := by
  refine ⟨by positivity, ?_⟩
  rw [div_lt_iff₀ (by positivity)]
  linarith

/-- The finite branch of `ballistic_velocity`. -/
theorem ballistic_fin (dist g rp angle : ℝ) (hg : 0 < g) (hr : 0 < rp) (ha0 : 0 < angle)
    (ha1 : angle < 90) (h0 : 0 ≤ dist) (h1 : dist < π * rp) :
    ballisticVelocity dist g rp angle = .fin (sqrt (g * rp * tan (dist / (2 * rp)) /
      (sin (deg2rad angle) * cos (deg2rad angle) +
        cos (deg2rad angle) ^ 2 * tan (dist / (2 * rp))))) := by
  obtain ⟨p0, p1⟩ := phi_range dist rp hr h0 h1
  obtain ⟨hs, hc⟩ := angle_trig angle ha0 ha1
  have ht : 0 ≤ tan (dist / (2 * rp)) := tan_nonneg_of_nonneg_of_le_pi_div_two p0 p1.le
  have hd : 0 < sin (deg2rad angle) * cos (deg2rad angle) +
      cos (deg2rad angle) ^ 2 * tan (dist / (2 * rp)) := by positivity
  unfold ballisticVelocity npDiv
  simp only []
  rw [if_neg hd.ne']
  simp only [Flt.sqrt]
  rw [if_neg (not_lt.2 (by positivity))]

/-- **C52** zero at distance 0. -/
theorem C52_zero (g rp angle : ℝ) (hg : 0 < g) (hr : 0 < rp) (ha0 : 0 < angle) (ha1 : angle < 90) :
    ballisticVelocity 0 g rp angle = .fin 0 := by
  rw [ballistic_fin 0 g rp angle hg hr ha0 ha1 (le_refl _) (by positivity)]
  simp

/-- **C52** a finite speed at each distance up to half the circumference, positive away
from 0 and below the bound `v² < g rp / cos² θ`. -/
theorem C52_bound (dist g rp angle : ℝ) (hg : 0 < g) (hr : 0 < rp) (ha0 : 0 < angle)
    (ha1 : angle < 90) (h0 : 0 < dist) (h1 : dist < π * rp) :
    ∃ v, ballisticVelocity dist g rp angle = .fin v ∧ 0 < v ∧
      v ^ 2 < g * rp / cos (angle * π / 180) ^ 2 := by
  obtain ⟨hs, hc⟩ := angle_trig angle ha0 ha1
  obtain ⟨p0, p1⟩ := phi_range dist rp hr h0.le h1
  have p0' : 0 < dist / (2 * rp) := by positivity
  have ht : 0 < tan (dist / (2 * rp)) := tan_pos_of_pos_of_lt_pi_div_two p0' p1
  have hd : 0 < sin (deg2rad angle) * cos (deg2rad angle) +
      cos (deg2rad angle) ^ 2 * tan (dist / (2 * rp)) := by positivity
  refine ⟨_, ballistic_fin dist g rp angle hg hr ha0 ha1 h0.le h1, ?_, ?_⟩
  · positivity
  · rw [sq_sqrt (by positivity)]
    have e : angle * π / 180 = deg2rad angle := by unfold deg2rad; ring
    rw [e, div_lt_div_iff₀ hd (by positivity)]
    have := mul_pos (mul_pos hg hr) (mul_pos hs hc)
    nlinarith

/-- **C52** strictly increasing with distance below half the circumference. -/
theorem C52_increasing (d1 d2 g rp angle v1 v2 : ℝ) (hg : 0 < g) (hr : 0 < rp) (ha0 : 0 < angle)
    (ha1 : angle < 90) (h0 : 0 ≤ d1) (h12 : d1 < d2) (h1 : d2 < π * rp)
    (e1 : ballisticVelocity d1 g rp angle = .fin v1)
    (e2 : ballisticVelocity d2 g rp angle = .fin v2) : v1 < v2 := by
  obtain ⟨hs, hc⟩ := angle_trig angle ha0 ha1
  obtain ⟨p0, p1⟩ := phi_range d1 rp hr h0 (by linarith)
  obtain ⟨q0, q1⟩ := phi_range d2 rp hr (by linarith) h1
  have hlt : d1 / (2 * rp) < d2 / (2 * rp) := div_lt_div_of_pos_right h12 (by positivity)
  have ht : tan (d1 / (2 * rp)) < tan (d2 / (2 * rp)) :=
    tan_lt_tan_of_nonneg_of_lt_pi_div_two p0 q1 hlt
  have ht0 : 0 ≤ tan (d1 / (2 * rp)) := tan_nonneg_of_nonneg_of_le_pi_div_two p0 p1.le
  rw [ballistic_fin d1 g rp angle hg hr ha0 ha1 h0 (by linarith), Flt.fin.injEq] at e1
  rw [ballistic_fin d2 g rp angle hg hr ha0 ha1 (by linarith) h1, Flt.fin.injEq] at e2
  rw [← e1, ← e2]
  generalize tan (d1 / (2 * rp)) = s at *
  generalize tan (d2 / (2 * rp)) = t at *
  have ht' : 0 < t := by linarith
  apply sqrt_lt_sqrt (by positivity)
  rw [div_lt_div_iff₀ (by positivity) (by positivity)]
  have := mul_pos (mul_pos (mul_pos hg hr) (mul_pos hs hc)) (sub_pos.2 ht)
  nlinarith

/-- **C52** the flight equation: the speed is the one whose range on the sphere is
`dist`, i.e. `tan(dist / 2rp) (g rp - v² cos² θ) = v² sin θ cos θ`. -/
theorem C52_flight_equation (dist g rp angle v : ℝ) (hg : 0 < g) (hr : 0 < rp) (ha0 : 0 < angle)
    (ha1 : angle < 90) (h0 : 0 ≤ dist) (h1 : dist < π * rp)
    (e : ballisticVelocity dist g rp angle = .fin v) :
    tan (dist / (2 * rp)) * (g * rp - v ^ 2 * cos (angle * π / 180) ^ 2) =
      v ^ 2 * (sin (angle * π / 180) * cos (angle * π / 180)) := by
  obtain ⟨hs, hc⟩ := angle_trig angle ha0 ha1
  obtain ⟨p0, p1⟩ := phi_range dist rp hr h0 h1
  have ht : 0 ≤ tan (dist / (2 * rp)) := tan_nonneg_of_nonneg_of_le_pi_div_two p0 p1.le
  have ea : angle * π / 180 = deg2rad angle := by unfold deg2rad; ring
  rw [ballistic_fin dist g rp angle hg hr ha0 ha1 h0 h1, Flt.fin.injEq] at e
  rw [ea, ← e, sq_sqrt (by positivity)]
  generalize tan (dist / (2 * rp)) = t at *
  have hd : sin (deg2rad angle) * cos (deg2rad angle) + cos (deg2rad angle) ^ 2 * t ≠ 0 := by
    positivity
  field_simp
  ring

/-- A quarter of the way round, at 45 degrees: `v² = g rp`. -/
example : ballisticVelocity (π / 2) 1 1 45 = .fin 1 := by
  rw [ballistic_fin _ 1 1 45 one_pos one_pos (by norm_num) (by norm_num) (by positivity)
    (by linarith [pi_pos])]
  have e : deg2rad 45 = π / 4 := by unfold deg2rad; ring
  have e2 : π / 2 / (2 * 1) = π / 4 := by ring
  rw [e, e2, tan_pi_div_four, sin_pi_div_four, cos_pi_div_four, div_pow, sq_sqrt (by norm_num)]
  have : √2 / 2 * (√2 / 2) = 1 / 2 := by
    rw [div_mul_div_comm, mul_self_sqrt (by norm_num)]; norm_num
  rw [this]
  norm_num

end MoonPIES
