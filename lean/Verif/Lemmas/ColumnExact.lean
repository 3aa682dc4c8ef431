import Verif.Lemmas.Column

/-!
# Exact-arithmetic lemmas about the column loops
-/

namespace MoonPIES

open Spec

set_option linter.unusedSectionVars false

variable {K : Type} [Field K] [LinearOrder K] [IsStrictOrderedRing K]

theorem seg_succ {l : List K} {i k : Nat} {x : K} (hik : i ≤ k) (hx : l[k]? = some x) :
    seg l i (k + 1) = seg l i k + x := by
  have hk := (List.getElem?_eq_some_iff.1 hx).1
  unfold seg
  have : l.take (k + 1) = l.take k ++ [x] := by
    rw [List.take_add_one, hx]; rfl
  rw [this, List.drop_append_of_le_length (by simp; omega)]
  simp

theorem seg_empty {l : List K} {i k : Nat} (h : k ≤ i) : seg l i k = 0 := by
  unfold seg
  rw [List.drop_eq_nil_of_le (by simp; omega)]
  rfl

theorem seg_nonneg {l : List K} (h : ∀ x ∈ l, 0 ≤ x) (i k : Nat) : 0 ≤ seg l i k := by
  unfold seg
  apply List.sum_nonneg
  intro x hx
  exact h x (List.mem_of_mem_take (List.mem_of_mem_drop hx))

theorem seg_le_seg {l l' : List K} (hlen : l.length = l'.length)
    (i k : Nat) (h : ∀ (j : Nat) x x', i ≤ j → j < k → l[j]? = some x → l'[j]? = some x' → x ≤ x') :
    seg l i k ≤ seg l' i k := by
  induction k with
  | zero => simp [seg_empty]
  | succ k ih =>
    have ih' := ih (fun j x x' h1 h2 => h j x x' h1 (by omega))
    by_cases hik : i ≤ k
    · by_cases hk : k < l.length
      · have h1 : l[k]? = some l[k] := List.getElem?_eq_getElem hk
        have h2 : l'[k]? = some (l'[k]'(hlen ▸ hk)) := List.getElem?_eq_getElem _
        rw [seg_succ hik h1, seg_succ hik h2]
        exact add_le_add ih' (h k _ _ hik (by omega) h1 h2)
      · have e1 : seg l i (k + 1) = seg l i k := by
          unfold seg; rw [List.take_of_length_le (by omega), List.take_of_length_le (by omega)]
        have e2 : seg l' i (k + 1) = seg l' i k := by
          unfold seg; rw [List.take_of_length_le (by omega), List.take_of_length_le (by omega)]
        rw [e1, e2]; exact ih'
    · rw [seg_empty (by omega), seg_empty (by omega)]

theorem nonneg_of_set {l : List K} (h0 : ∀ x ∈ l, 0 ≤ x) {k : Nat} {y : K} (hy : 0 ≤ y) :
    ∀ x ∈ l.set k y, 0 ≤ x := by
  intro x hx
  rcases List.mem_or_eq_of_mem_set hx with hx | rfl
  · exact h0 x hx
  · exact hy

theorem ite_eq_min (d r depth : K) :
    (if d + r > depth then depth - d else r) = min r (depth - d) := by
  split
  · rw [min_eq_right]; linarith
  · rw [min_eq_left]; linarith

/-- The exact loop computes the depth-budget rule. -/
theorem gardenLoop_rule {ej : List K} {depth eff : K} (hej : ∀ x ∈ ej, 0 ≤ x)
    (he0 : 0 ≤ eff) (he1 : eff ≤ 1) :
    ∀ (k : Nat) (d : K) (ice ice' : List K), (∀ x ∈ ice, 0 ≤ x) →
      gardenLoop (fun x => x) ej depth eff (2 * k) d ice = .ok ice' →
      ∀ (i : Nat) x x', i < k → ice[i]? = some x → ice'[i]? = some x' →
        x' = if d + (seg ej i k + seg ice' (i + 1) k) < depth
          then x - min (x * eff) (depth - (d + (seg ej i k + seg ice' (i + 1) k)))
          else x := by
  intro k
  induction k with
  | zero => intro d ice ice' _ _ i x x' hi; omega
  | succ k ih =>
    intro d ice ice' h0 h i x x' hi hx hx'
    rw [gardenLoop_layer] at h
    split at h
    · split at h
      · cases h
      · rename_i e hek
        have he : 0 ≤ e := hej e (List.mem_of_getElem? hek)
        split at h
        · rename_i hlt
          split at h
          · cases h
          · rename_i y hy
            simp only [ite_eq_min] at h
            have hy0 := h0 y (List.mem_of_getElem? hy)
            have hnew : 0 ≤ y - min (y * eff) (depth - (d + e)) := by
              have h1 : min (y * eff) (depth - (d + e)) ≤ y * eff := min_le_left _ _
              have h2 : y * eff ≤ y := mul_le_of_le_one_right hy0 he1
              linarith
            have hfr := (gardenLoop_frame _ _ _ _ _ _ _ _ h).2 k (le_refl _)
            have hk' : ice'[k]? = some (y - min (y * eff) (depth - (d + e))) := by
              rw [hfr, List.getElem?_set_self (List.getElem?_eq_some_iff.1 hy).1]
            by_cases hik : i = k
            · subst hik
              rw [hx] at hy; cases hy
              rw [hk'] at hx'; cases hx'
              rw [seg_succ (le_refl _) hek, seg_empty (le_refl _), seg_empty (le_refl _)]
              simp only [zero_add, add_zero]
              rw [if_pos hlt]
            · have hik' : i < k := by omega
              have hxs : (ice.set k (y - min (y * eff) (depth - (d + e))))[i]? = some x := by
                rw [List.getElem?_set_ne (by omega)]; exact hx
              have := ih _ _ _ (nonneg_of_set h0 hnew) h i x x' hik' hxs hx'
              rw [seg_succ (by omega) hek, seg_succ (by omega) hk']
              have hring : d + e + (y - min (y * eff) (depth - (d + e))) +
                  (seg ej i k + seg ice' (i + 1) k) =
                  d + (seg ej i k + e + (seg ice' (i + 1) k +
                    (y - min (y * eff) (depth - (d + e))))) := by ring
              rw [hring] at this
              exact this
        · rename_i hge
          cases h
          rw [hx] at hx'; cases hx'
          rw [if_neg]
          have h1 := seg_nonneg hej i k
          have h2 := seg_nonneg h0 (i + 1) (k + 1)
          rw [seg_succ (by omega) hek]
          intro hc
          apply hge
          linarith
    · rename_i hge
      cases h
      rw [hx] at hx'; cases hx'
      rw [if_neg]
      have h1 := seg_nonneg hej i (k + 1)
      have h2 := seg_nonneg h0 (i + 1) (k + 1)
      intro hc
      apply hge
      linarith

/-- Total ice of a column, as a segment. -/
theorem seg_zero_length (l : List K) : seg l 0 l.length = l.sum := by
  simp [seg]

/-- The number of loop turns for `t ≥ 0`. -/
theorem toNat_two_mul (t : Nat) : (2 * (t : Int) + 2).toNat = 2 * (t + 1) := by omega

end MoonPIES
