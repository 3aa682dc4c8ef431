import Verif.Spec.Buried
import Verif.Lemmas.LayDown
import Mathlib.Tactic.Linarith

/-!
# Lemmas for C147
-/

namespace MoonPIES

open Spec

variable {K : Type} [Field K] [LinearOrder K] [IsStrictOrderedRing K]

theorem exposure_nonneg : ∀ (vs : List (Event K)) (cover : K), 0 ≤ exposure cover vs
  | [], _ => le_rfl
  | v :: vs, cover => by
    rw [exposure]
    have h1 := le_max_left 0 (v.bsedDepth - cover)
    have h2 := le_max_left 0 (v.overturn - (cover + v.ej))
    have h3 := exposure_nonneg vs (cover + v.ej)
    linarith

/-- What working a pile does to one of its layers. -/
theorem sink_layer {depth eff : K} (h0 : 0 ≤ eff) (h1 : eff ≤ 1) :
    ∀ (above : List (K × K)) (d x e : K) (below : List (K × K)), (∀ p ∈ above, 0 ≤ p.1) → 0 ≤ x →
      (∀ p ∈ below, 0 ≤ p.1) →
      ∃ above' x' below', sink depth eff d (above ++ (x, e) :: below) = above' ++ (x', e) :: below' ∧
        above'.map (·.2) = above.map (·.2) ∧ below'.map (·.2) = below.map (·.2) ∧
        (∀ p ∈ above', 0 ≤ p.1) ∧ (∀ p ∈ below', 0 ≤ p.1) ∧ 0 ≤ x' ∧ x' ≤ x ∧
        x - max 0 (depth - (d + (above.map (·.2)).sum + e)) ≤ x' := by
  have keep : ∀ (l : List (K × K)) (d : K), (∀ p ∈ l, 0 ≤ p.1) →
      (sink depth eff d l).map (·.2) = l.map (·.2) ∧ ∀ p ∈ sink depth eff d l, 0 ≤ p.1 := by
    intro l
    induction l with
    | nil => intro d h; exact ⟨rfl, by intro p hp; cases hp⟩
    | cons q l ih =>
      intro d h
      obtain ⟨y, f⟩ := q
      rw [sink]
      split
      · obtain ⟨i1, i2⟩ := ih (d + f + (y - min (y * eff) (depth - (d + f)))) (fun p hp => h p (List.mem_cons_of_mem _ hp))
        refine ⟨by rw [List.map_cons, List.map_cons, i1], ?_⟩
        intro p hp
        rcases List.mem_cons.1 hp with rfl | hp
        · have hy : 0 ≤ y := h (y, f) (by simp)
          have : y * eff ≤ y := mul_le_of_le_one_right hy h1
          have := min_le_left (y * eff) (depth - (d + f))
          change 0 ≤ y - min (y * eff) (depth - (d + f))
          linarith
        · exact i2 p hp
      · exact ⟨rfl, h⟩
  intro above
  induction above with
  | nil =>
    intro d x e below _ hx hb
    rw [List.nil_append, sink]
    split
    · rename_i hd
      obtain ⟨k1, k2⟩ := keep below (d + e + (x - min (x * eff) (depth - (d + e)))) hb
      have hm0 : 0 ≤ min (x * eff) (depth - (d + e)) := le_min (mul_nonneg hx h0) (by linarith [hd.2])
      have hm1 := min_le_left (x * eff) (depth - (d + e))
      have hm2 := min_le_right (x * eff) (depth - (d + e))
      have hxe : x * eff ≤ x := mul_le_of_le_one_right hx h1
      have hm3 := le_max_right 0 (depth - (d + e))
      refine ⟨[], _, _, rfl, rfl, k1, (by intro p hp; cases hp), k2, by linarith, by linarith, ?_⟩
      simp only [List.map_nil, List.sum_nil, add_zero]
      linarith
    · refine ⟨[], x, below, rfl, rfl, rfl, (by intro p hp; cases hp), hb, hx, le_rfl, ?_⟩
      have := le_max_left 0 (depth - (d + ((([] : List (K × K)).map (·.2)).sum) + e))
      linarith
  | cons q above ih =>
    intro d x e below ha hx hb
    obtain ⟨y, f⟩ := q
    have hy : 0 ≤ y := ha (y, f) (by simp)
    rw [List.cons_append, sink]
    split
    · rename_i hd
      have hye : y * eff ≤ y := mul_le_of_le_one_right hy h1
      have hm1 := min_le_left (y * eff) (depth - (d + f))
      obtain ⟨above', x', below', e1, e2, e3, e4, e5, e6, e7, e8⟩ := ih
        (d + f + (y - min (y * eff) (depth - (d + f)))) x e below (fun p hp => ha p (List.mem_cons_of_mem _ hp)) hx hb
      refine ⟨(y - min (y * eff) (depth - (d + f)), f) :: above', x', below', by rw [e1]; rfl,
        by rw [List.map_cons, List.map_cons, e2], e3, ?_, e5, e6, e7, ?_⟩
      · intro p hp
        rcases List.mem_cons.1 hp with rfl | hp
        · change 0 ≤ y - min (y * eff) (depth - (d + f)); linarith
        · exact e4 p hp
      · rw [List.map_cons, List.sum_cons]
        have hmono : max 0 (depth - (d + f + (y - min (y * eff) (depth - (d + f))) + (above.map (·.2)).sum + e)) ≤
            max 0 (depth - (d + (f + (above.map (·.2)).sum) + e)) := max_le_max le_rfl (by linarith)
        change x - max 0 (depth - (d + (f + (above.map (·.2)).sum) + e)) ≤ x'
        linarith
    · refine ⟨(y, f) :: above, x, below, rfl, rfl, rfl, ha, hb, hx, le_rfl, ?_⟩
      have := le_max_left 0 (depth - (d + (((y, f) :: above).map (·.2)).sum + e))
      linarith

/-- A layer of a pile through later events. -/
theorem layDown_layer : ∀ (vs : List (Event K)) (above : List (K × K)) (x e : K) (below : List (K × K)),
    (∀ v ∈ vs, 0 ≤ v.ice ∧ 0 ≤ v.bsedFrac ∧ v.bsedFrac ≤ 1) →
    (∀ p ∈ above, 0 ≤ p.1) → 0 ≤ x → (∀ p ∈ below, 0 ≤ p.1) →
    ∃ above' x' below', layDown (above ++ (x, e) :: below) vs = above' ++ (x', e) :: below' ∧
      below'.length = below.length ∧ 0 ≤ x' ∧ x' ≤ x ∧ x - exposure ((above.map (·.2)).sum + e) vs ≤ x'
  | [], above, x, e, below, _, _, hx, _ => ⟨above, x, below, rfl, rfl, hx, le_rfl, by rw [exposure]; linarith⟩
  | v :: vs, above, x, e, below, hv, ha, hx, hb => by
    obtain ⟨hi, hf0, hf1⟩ := hv v (by simp)
    obtain ⟨a1, x1, b1, e1, e2, e3, e4, e5, e6, e7, e8⟩ := sink_layer (depth := v.bsedDepth) hf0 hf1 above 0 x e below ha hx hb
    obtain ⟨a2, x2, b2, f1, f2, f3, f4, f5, f6, f7, f8⟩ := sink_layer (depth := v.overturn) (eff := (1 : K)) zero_le_one le_rfl
      ((v.ice, v.ej) :: a1) 0 x1 e b1
      (by
        intro p hp
        rcases List.mem_cons.1 hp with rfl | hp
        · exact hi
        · exact e4 p hp) e6 e5
    obtain ⟨a3, x3, b3, g1, g2, g3, g4, g5⟩ := layDown_layer vs a2 x2 e b2 (fun w hw => hv w (List.mem_cons_of_mem _ hw)) f4 f6 f5
    refine ⟨a3, x3, b3, ?_, ?_, g3, by linarith, ?_⟩
    · rw [layDown, e1, ← List.cons_append, f1, g1]
    · have h1 := congrArg List.length e3
      have h2 := congrArg List.length f3
      simp only [List.length_map] at h1 h2
      rw [g2, h2, h1]
    · have hs : (a2.map (·.2)).sum = v.ej + (above.map (·.2)).sum := by
        rw [f2, List.map_cons, List.sum_cons, e2]
      rw [List.map_cons, List.sum_cons, e2] at f8
      rw [hs] at g5
      rw [exposure]
      have q1 : (0 : K) + (above.map (·.2)).sum + e = (above.map (·.2)).sum + e := by ring
      have q2 : (0 : K) + (v.ej + (above.map (·.2)).sum) + e = (above.map (·.2)).sum + e + v.ej := by ring
      have q3 : v.ej + (above.map (·.2)).sum + e = (above.map (·.2)).sum + e + v.ej := by ring
      rw [q1] at e8
      change x1 - max 0 (v.overturn - (0 + (v.ej + (above.map (·.2)).sum) + e)) ≤ x2 at f8
      rw [q2] at f8
      rw [q3] at g5
      linarith

/-- The layers keep their number and stay non-negative. -/
theorem layDown_nonneg : ∀ (vs : List (Event K)) (l : List (K × K)),
    (∀ v ∈ vs, 0 ≤ v.ice ∧ 0 ≤ v.bsedFrac ∧ v.bsedFrac ≤ 1) → (∀ p ∈ l, 0 ≤ p.1) →
    (layDown l vs).length = l.length + vs.length ∧ ∀ p ∈ layDown l vs, 0 ≤ p.1 := by
  have keep : ∀ (depth eff : K), 0 ≤ eff → eff ≤ 1 → ∀ (l : List (K × K)), (∀ p ∈ l, 0 ≤ p.1) →
      (sink depth eff 0 l).length = l.length ∧ ∀ p ∈ sink depth eff 0 l, 0 ≤ p.1 := by
    intro depth eff h0 h1 l h
    cases l with
    | nil => exact ⟨rfl, h⟩
    | cons q l =>
      obtain ⟨a, x, b, e1, e2, e3, e4, e5, e6, -, -⟩ := sink_layer (depth := depth) h0 h1 [] 0 q.1 q.2 l
        (by intro p hp; cases hp) (h q (by simp)) (fun p hp => h p (List.mem_cons_of_mem _ hp))
      rw [List.nil_append] at e1
      have ha : a = [] := by simpa using e2
      have hb := congrArg List.length e3
      simp only [List.length_map] at hb
      rw [show q :: l = (q.1, q.2) :: l from rfl, e1, ha]
      refine ⟨by simp [hb], ?_⟩
      intro p hp
      rcases List.mem_cons.1 hp with rfl | hp
      · exact e6
      · exact e5 p hp
  intro vs
  induction vs with
  | nil => intro l _ h; exact ⟨rfl, h⟩
  | cons v vs ih =>
    intro l hv h
    obtain ⟨hi, hf0, hf1⟩ := hv v (by simp)
    obtain ⟨k1, k2⟩ := keep v.bsedDepth v.bsedFrac hf0 hf1 l h
    obtain ⟨k3, k4⟩ := keep v.overturn 1 zero_le_one le_rfl ((v.ice, v.ej) :: sink v.bsedDepth v.bsedFrac 0 l) (by
      intro p hp
      rcases List.mem_cons.1 hp with rfl | hp
      · exact hi
      · exact k2 p hp)
    obtain ⟨k5, k6⟩ := ih _ (fun w hw => hv w (List.mem_cons_of_mem _ hw)) k4
    rw [layDown]
    refine ⟨?_, k6⟩
    rw [k5, k3, List.length_cons, k1, List.length_cons]
    omega

end MoonPIES
