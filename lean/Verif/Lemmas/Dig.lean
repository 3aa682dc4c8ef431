import Mathlib.Data.List.Forall2
import Verif.Spec.Dig
import Verif.Lemmas.LayDown

/-!
# Lemmas on the gardening that the tests expect
-/

namespace MoonPIES

open Spec

set_option linter.unusedSectionVars false

variable {K : Type} [Field K] [LinearOrder K] [IsStrictOrderedRing K]

theorem sink_le (depth : K) : ∀ (l : List (K × K)) (d : K), (∀ p ∈ l, 0 ≤ p.1 ∧ 0 ≤ p.2) →
    List.Forall₂ (fun p q => p.1 ≤ q.1) (sink depth 1 d l) l
  | [], d, _ => by rw [sink]; exact .nil
  | (x, e) :: l, d, h => by
    rw [sink]
    split
    · rename_i hd
      refine .cons ?_ (sink_le depth l _ (fun p hp => h p (by simp [hp])))
      have := (h (x, e) (by simp)).1
      simp only [mul_one] at this ⊢
      have : 0 ≤ min x (depth - (d + e)) := le_min this (by linarith [hd.2])
      linarith
    · exact List.forall₂_same.2 fun p _ => le_rfl

theorem sink_dig (depth : K) : ∀ (l : List (K × K)) (d d' : K), d ≤ d' → (∀ p ∈ l, 0 ≤ p.1 ∧ 0 ≤ p.2) →
    List.Forall₂ (fun p q => p.1 ≤ q.1) (sink depth 1 d l) (dig depth d' l)
  | [], d, d', _, _ => by rw [sink, dig]; exact .nil
  | (x, e) :: l, d, d', hd, h => by
    by_cases hc : d' < depth ∧ d' + e < depth
    · rw [sink, dig, if_pos hc, if_pos ⟨by linarith [hc.1], by linarith [hc.2]⟩]
      have hx := (h (x, e) (by simp)).1
      simp only [] at hx
      have hm : min x (depth - (d' + e)) ≤ min (x * 1) (depth - (d + e)) := by
        rw [mul_one]
        exact min_le_min le_rfl (by linarith)
      refine .cons (by simp only []; linarith) (sink_dig depth l _ _ ?_ (fun p hp => h p (by simp [hp])))
      have : 0 ≤ min x (depth - (d' + e)) := le_min hx (by linarith [hc.2])
      linarith
    · rw [dig, if_neg hc]
      exact sink_le depth _ _ h

/-- Nothing happens to a pile below the depth. -/
theorem sink_deep (depth d : K) (h : depth ≤ d) : ∀ l : List (K × K), sink depth 1 d l = l
  | [] => rfl
  | (x, e) :: l => by rw [sink, if_neg (fun hc => absurd hc.1 (not_lt.2 h))]

theorem dig_deep (depth d : K) (h : depth ≤ d) : ∀ l : List (K × K), dig depth d l = l
  | [] => rfl
  | (x, e) :: l => by rw [dig, if_neg (fun hc => absurd hc.1 (not_lt.2 h))]

/-- Both agree while the uppermost ice is at least twice as thick as gardening reaches into it: `l` are the
layers of ejecta without ice on top, then comes the first layer with ice. -/
theorem sink_eq_dig (depth : K) : ∀ (l : List (K × K)) (x e d : K) (r : List (K × K)), (∀ p ∈ l, p.1 = 0) →
    2 * (depth - (d + (l.map (·.2)).sum + e)) ≤ x →
    sink depth 1 d (l ++ (x, e) :: r) = dig depth d (l ++ (x, e) :: r)
  | [], x, e, d, r, _, hd => by
    rw [List.map_nil, List.sum_nil, add_zero] at hd
    rw [List.nil_append, sink, dig]
    split
    · rename_i hc
      rw [mul_one, min_eq_right (by linarith [hc.2]), sink_deep _ _ (by linarith),
        dig_deep _ _ (by linarith [hc.2])]
    · rfl
  | (y, f) :: l, x, e, d, r, h0, hd => by
    have hy : y = 0 := h0 (y, f) (by simp)
    subst hy
    rw [List.map_cons, List.sum_cons] at hd
    rw [List.cons_append, sink, dig]
    split
    · rename_i hc
      rw [mul_one, min_eq_left (by linarith [hc.2]), sub_zero]
      congr 1
      exact sink_eq_dig depth l x e _ r (fun p hp => h0 p (by simp [hp])) (by linarith)
    · rfl

theorem garden_dig (ice ej : List K) (t : Nat) (depth : K) (hi : t < ice.length) (hj : t < ej.length) :
    gardenIceColumn (fun x => x) ice ej t depth 1 =
      .ok (((sink depth 1 0 (pileOf ice ej (t + 1))).map (·.1)).reverse ++ ice.drop (t + 1)) := by
  unfold gardenIceColumn
  rw [show (2 * (t : Int) + 2).toNat = 2 * (t + 1) by omega]
  exact garden_sink ej depth 1 (t + 1) 0 ice hi hj

end MoonPIES
