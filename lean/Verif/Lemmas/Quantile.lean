import Verif.Spec.Quantile
import Verif.Props.AgesToTime
import Mathlib.Tactic.Linarith
import Mathlib.Tactic.Ring
import Mathlib.Tactic.NormNum

/-!
# Lemmas about quantiles
-/

namespace MoonPIES

open Spec

variable {K : Type} [Field K] [LinearOrder K] [FloorRing K] [IsStrictOrderedRing K]

omit [Field K] [FloorRing K] [IsStrictOrderedRing K] in
theorem sorted_counts (s : List K) (hs : s.Pairwise (· ≤ ·)) (k : Nat) (a : K)
    (ha : s[k]? = some a) :
    s.countP (fun x => decide (x < a)) ≤ k ∧ k < s.countP (fun x => decide (x ≤ a)) := by
  obtain ⟨hk, hka⟩ := List.getElem?_eq_some_iff.1 ha
  rw [List.pairwise_iff_getElem] at hs
  have e : s = s.take (k + 1) ++ s.drop (k + 1) := (List.take_append_drop _ _).symm
  have e' : s = s.take k ++ s.drop k := (List.take_append_drop _ _).symm
  constructor
  · rw [e', List.countP_append]
    have h0 : (s.drop k).countP (fun x => decide (x < a)) = 0 := by
      rw [List.countP_eq_zero]
      intro x hx
      obtain ⟨j, hj⟩ := List.mem_iff_getElem?.1 hx
      rw [List.getElem?_drop] at hj
      obtain ⟨hj1, hj2⟩ := List.getElem?_eq_some_iff.1 hj
      simp only [decide_eq_true_eq, not_lt]
      rcases Nat.eq_zero_or_pos j with h | h
      · subst h
        rw [← hka, ← hj2]
        exact le_refl _
      · rw [← hka, ← hj2]
        exact hs k (k + j) hk hj1 (by omega)
    rw [h0, Nat.add_zero]
    exact le_trans List.countP_le_length (by rw [List.length_take]; omega)
  · rw [e, List.countP_append]
    have h0 : (s.take (k + 1)).countP (fun x => decide (x ≤ a)) = k + 1 := by
      have hl : (s.take (k + 1)).length = k + 1 := by rw [List.length_take]; omega
      refine Eq.trans (List.countP_eq_length.2 ?_) hl
      intro x hx
      obtain ⟨j, hj⟩ := List.mem_iff_getElem?.1 hx
      rw [List.getElem?_take] at hj
      split at hj
      · obtain ⟨hj1, hj2⟩ := List.getElem?_eq_some_iff.1 hj
        simp only [decide_eq_true_eq]
        rw [← hka, ← hj2]
        rcases Nat.lt_or_ge j k with h | h
        · exact hs j k hj1 hk h
        · have : j = k := by omega
          subst this
          exact le_refl _
      · cases hj
    omega

omit [FloorRing K] [IsStrictOrderedRing K] in
set_option linter.unusedSectionVars false in
theorem ranked_of_sort (l : List K) (k : Nat) (a : K)
    (ha : (l.insertionSort (· ≤ ·))[k]? = some a) : Ranked l k a := by
  have hp := List.perm_insertionSort (· ≤ ·) l
  have hs := List.pairwise_insertionSort (· ≤ ·) l
  obtain ⟨h1, h2⟩ := sorted_counts _ hs k a ha
  rw [hp.countP_eq] at h1 h2
  exact ⟨hp.mem_iff.1 (List.mem_of_getElem? ha), h1, h2⟩

theorem quantile_spec (q : K) (hq0 : 0 ≤ q) (hq1 : q ≤ 1) (l : List K) (hl : l ≠ []) :
    ∃ v, quantile q l = some v ∧ Quantile l q v := by
  obtain ⟨s, hs⟩ : ∃ s, s = l.insertionSort (· ≤ ·) := ⟨_, rfl⟩
  have hlen : s.length = l.length := by rw [hs, List.length_insertionSort]
  have hpos : 0 < l.length := List.length_pos_iff.2 hl
  have hn1 : (0 : K) ≤ (l.length : K) - 1 := by
    have : (1 : K) ≤ l.length := by exact_mod_cast hpos
    linarith
  obtain ⟨h, hh⟩ : ∃ h, h = ((l.length : K) - 1) * q := ⟨_, rfl⟩
  have h0 : 0 ≤ h := by rw [hh]; exact mul_nonneg hn1 hq0
  have h1 : h ≤ (l.length : K) - 1 := by
    rw [hh]; exact mul_le_of_le_one_right hn1 hq1
  obtain ⟨k, hk⟩ : ∃ k : Nat, k = ⌊h⌋.toNat := ⟨_, rfl⟩
  have hf0 : 0 ≤ ⌊h⌋ := Int.floor_nonneg.2 h0
  have hkf : ((k : Nat) : Int) = ⌊h⌋ := by rw [hk]; exact Int.toNat_of_nonneg hf0
  have hkK : (k : K) = (⌊h⌋ : K) := by rw [← hkf]; simp
  have hkn : k < l.length := by
    have : (k : K) ≤ (l.length : K) - 1 := by rw [hkK]; exact (Int.floor_le h).trans h1
    have : ((k + 1 : Nat) : K) ≤ l.length := by push_cast; linarith
    have : k + 1 ≤ l.length := by exact_mod_cast this
    omega
  obtain ⟨a, ha⟩ : ∃ a, s[k]? = some a := ⟨_, List.getElem?_eq_getElem (by omega)⟩
  have ra : Ranked l k a := ranked_of_sort l k a (by rw [← hs]; exact ha)
  have hw0 : 0 ≤ h - ⌊h⌋ := by linarith [Int.floor_le h]
  have hw1 : h - ⌊h⌋ < 1 := by linarith [Int.lt_floor_add_one h]
  have hq : quantile q l = match s[k]?, s[k + 1]? with
      | some a, some b => some (a + (b - a) * (h - ⌊h⌋))
      | some a, none => some a
      | none, _ => none := by
    rw [hk, hs, hh]
    rfl
  by_cases hk1 : k + 1 < l.length
  · obtain ⟨b, hb⟩ : ∃ b, s[k + 1]? = some b := ⟨_, List.getElem?_eq_getElem (by omega)⟩
    rw [ha, hb] at hq
    refine ⟨_, hq, k, a, b, h - ⌊h⌋, ra, ?_, hw0, hw1, ?_, by ring⟩
    · rw [min_eq_left (by omega)]
      exact ranked_of_sort l (k + 1) b (by rw [← hs]; exact hb)
    · rw [hkK, hh]; ring
  · have hb : s[k + 1]? = none := List.getElem?_eq_none (by omega)
    rw [ha, hb] at hq
    refine ⟨_, hq, k, a, a, h - ⌊h⌋, ra, ?_, hw0, hw1, ?_, by ring⟩
    · rw [show min (k + 1) (l.length - 1) = k by omega]
      exact ra
    · rw [hkK, hh]; ring

omit [FloorRing K] in
/-- A smaller place has a smaller value. -/
theorem ranked_le {l : List K} {j k : Nat} {a b : K} (ha : Ranked l j a) (hb : Ranked l k b)
    (h : j ≤ k) : a ≤ b := by
  by_contra hc
  have hc : b < a := not_le.1 hc
  have h1 : l.countP (fun x => decide (x ≤ b)) ≤ l.countP (fun x => decide (x < a)) := by
    apply List.countP_mono_left
    intro x _ hx
    simp only [decide_eq_true_eq] at hx ⊢
    exact lt_of_le_of_lt hx hc
  have := ha.2.1
  have := hb.2.2
  omega

omit [FloorRing K] in
theorem quantile_between {l : List K} {q v : K} (h : Quantile l q v) :
    ∃ (k : Nat) (a b : K), Ranked l k a ∧ Ranked l (min (k + 1) (l.length - 1)) b ∧ a ≤ v ∧ v ≤ b ∧
      (k : K) ≤ q * ((l.length : K) - 1) ∧ q * ((l.length : K) - 1) < k + 1 ∧
      ((k : K) = q * ((l.length : K) - 1) → v = a) := by
  obtain ⟨k, a, b, w, ra, rb, w0, w1, hk, hv⟩ := h
  have hkn : k < l.length := lt_of_lt_of_le ra.2.2 List.countP_le_length
  have hab : a ≤ b := ranked_le ra rb (by omega)
  refine ⟨k, a, b, ra, rb, ?_, ?_, by linarith, by linarith, ?_⟩
  · have := mul_nonneg w0 (sub_nonneg.2 hab)
    rw [hv]; linarith
  · have := mul_nonneg (sub_nonneg.2 w1.le) (sub_nonneg.2 hab)
    rw [hv]; linarith
  · intro h
    have : w = 0 := by linarith
    rw [hv, this]; ring

/-- More than the fraction `q` of `n - 1` values are not above the quantile. -/
theorem quantile_count_le {l : List K} {q v : K} (h : Quantile l q v) :
    q * ((l.length : K) - 1) < (l.countP (fun x => decide (x ≤ v)) : Nat) := by
  obtain ⟨k, a, b, ra, rb, h1, h2, h3, h4, -⟩ := quantile_between h
  have : l.countP (fun x => decide (x ≤ a)) ≤ l.countP (fun x => decide (x ≤ v)) := by
    apply List.countP_mono_left
    intro x _ hx
    simp only [decide_eq_true_eq] at hx ⊢
    exact hx.trans h1
  have h5 : k + 1 ≤ l.countP (fun x => decide (x ≤ v)) := by have := ra.2.2; omega
  have : ((k + 1 : Nat) : K) ≤ (l.countP (fun x => decide (x ≤ v)) : Nat) := by exact_mod_cast h5
  push_cast at this
  linarith

omit [Field K] [FloorRing K] [IsStrictOrderedRing K] in
theorem countP_ge_add (l : List K) (v : K) :
    l.countP (fun x => decide (v ≤ x)) + l.countP (fun x => decide (x < v)) = l.length := by
  rw [List.length_eq_countP_add_countP (fun x => decide (v ≤ x))]
  congr 1
  apply List.countP_congr
  intro x _
  simp

/-- More than the fraction `1 - q` of `n - 1` values are not below the quantile. -/
theorem quantile_count_ge {l : List K} {q v : K} (h : Quantile l q v) :
    (1 - q) * ((l.length : K) - 1) < (l.countP (fun x => decide (v ≤ x)) : Nat) := by
  obtain ⟨k, a, b, ra, rb, h1, h2, h3, h4, h6⟩ := quantile_between h
  have hkn : k < l.length := lt_of_lt_of_le ra.2.2 List.countP_le_length
  have hadd := countP_ge_add l v
  have haddK : ((l.countP (fun x => decide (v ≤ x)) : Nat) : K) +
      (l.countP (fun x => decide (x < v)) : Nat) = l.length := by exact_mod_cast hadd
  rcases eq_or_lt_of_le h3 with he | hlt
  · have hv := h6 he
    have hc : l.countP (fun x => decide (x < v)) ≤ k := by rw [hv]; exact ra.2.1
    have : ((l.countP (fun x => decide (x < v)) : Nat) : K) ≤ k := by exact_mod_cast hc
    linarith
  · have hc : l.countP (fun x => decide (x < v)) ≤ l.countP (fun x => decide (x < b)) := by
      apply List.countP_mono_left
      intro x _ hx
      simp only [decide_eq_true_eq] at hx ⊢
      exact lt_of_lt_of_le hx h2
    have hc : l.countP (fun x => decide (x < v)) ≤ k + 1 := by have := rb.2.1; omega
    have : ((l.countP (fun x => decide (x < v)) : Nat) : K) ≤ k + 1 := by exact_mod_cast hc
    linarith

/-- Quantiles grow with the fraction. -/
theorem quantile_mono {l : List K} {p q u v : K} (hu : Quantile l p u) (hv : Quantile l q v)
    (hpq : p ≤ q) : u ≤ v := by
  obtain ⟨j, a, b, w, ra, rb, w0, w1, hj, hu⟩ := hu
  obtain ⟨k, c, d, x, rc, rd, x0, x1, hk, hv⟩ := hv
  have hjn : j < l.length := lt_of_lt_of_le ra.2.2 List.countP_le_length
  have hkn : k < l.length := lt_of_lt_of_le rc.2.2 List.countP_le_length
  have hn : (0 : K) ≤ (l.length : K) - 1 := by
    have : (1 : K) ≤ l.length := by exact_mod_cast (show 1 ≤ l.length by omega)
    linarith
  have hm : (j : K) + w ≤ k + x := by
    rw [hj, hk]; exact mul_le_mul_of_nonneg_right hpq hn
  have hjk : j ≤ k := by
    have : (j : K) < ((k + 1 : Nat) : K) := by push_cast; linarith
    have : j < k + 1 := by exact_mod_cast this
    omega
  have hab : a ≤ b := ranked_le ra rb (by omega)
  have hcd : c ≤ d := ranked_le rc rd (by omega)
  rcases Nat.eq_or_lt_of_le hjk with h | h
  · subst h
    have e1 : a = c := le_antisymm (ranked_le ra rc le_rfl) (ranked_le rc ra le_rfl)
    have e2 : b = d := le_antisymm (ranked_le rb rd le_rfl) (ranked_le rd rb le_rfl)
    subst e1 e2
    have hwx : w ≤ x := by linarith
    have := mul_nonneg (sub_nonneg.2 hwx) (sub_nonneg.2 hab)
    rw [hu, hv]; linarith
  · have hbc : b ≤ c := ranked_le rb rc (by omega)
    have e1 : u ≤ b := by
      have := mul_nonneg (sub_nonneg.2 w1.le) (sub_nonneg.2 hab)
      rw [hu]; linarith
    have e2 : c ≤ v := by
      have := mul_nonneg x0 (sub_nonneg.2 hcd)
      rw [hv]; linarith
    linarith

end MoonPIES
