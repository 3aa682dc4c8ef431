import Verif.Model.Plot
import Verif.Spec.Aggregate
import Mathlib.Tactic.Linarith
import Mathlib.Algebra.Order.BigOperators.Group.List

/-!
# Lemmas about the aggregation of stratigraphy files
-/

namespace MoonPIES

open Spec

set_option linter.unusedSectionVars false

variable {K : Type} [Field K] [LinearOrder K]

/-- In an ascending list the elements up to `v` come first. -/
theorem sorted_count (v : K) : ∀ (a : List K), a.Pairwise (· ≤ ·) →
    ∀ (i : Nat) x, a[i]? = some x →
      (x ≤ v ↔ i < (a.filter (fun y => decide (y ≤ v))).length)
  | [], _, i, x, h => by simp at h
  | y :: a, hs, i, x, h => by
    rw [List.pairwise_cons] at hs
    by_cases hy : y ≤ v
    · rw [List.filter_cons_of_pos (by simpa using hy)]
      cases i with
      | zero => simp at h; subst h; simp [hy]
      | succ i =>
        rw [List.getElem?_cons_succ] at h
        rw [sorted_count v a hs.2 i x h]
        simp
    · have hall : ∀ z ∈ y :: a, ¬ z ≤ v := by
        intro z hz
        rcases List.mem_cons.1 hz with rfl | hz
        · exact hy
        · exact fun hle => hy ((hs.1 z hz).trans hle)
      have hnil : (y :: a).filter (fun y => decide (y ≤ v)) = [] := by
        rw [List.filter_eq_nil_iff]; intro z hz; simpa using hall z hz
      rw [hnil]
      have := hall x (List.mem_of_getElem? h)
      simp [this]

/-- The binary search finds how many elements do not exceed `v`. -/
theorem searchRight_spec (a : List K) (hs : a.Pairwise (· ≤ ·)) (v : K) :
    ∀ (fuel lo hi : Nat), hi - lo ≤ fuel → hi ≤ a.length →
      lo ≤ (a.filter (fun y => decide (y ≤ v))).length →
      (a.filter (fun y => decide (y ≤ v))).length ≤ hi →
      searchRight a v fuel lo hi = (a.filter (fun y => decide (y ≤ v))).length
  | 0, lo, hi, hf, _, hlo, hhi => by
    simp only [searchRight]; omega
  | fuel + 1, lo, hi, hf, hlen, hlo, hhi => by
    simp only [searchRight]
    by_cases hlt : lo < hi
    · rw [if_pos hlt]
      have hmid : lo + (hi - lo) / 2 < a.length := by omega
      rw [List.getElem?_eq_getElem hmid]
      have hc := sorted_count v a hs _ _ (List.getElem?_eq_getElem hmid)
      simp only []
      by_cases hx : a[lo + (hi - lo) / 2] ≤ v
      · rw [if_pos hx]
        have := hc.1 hx
        exact searchRight_spec a hs v fuel _ _ (by omega) hlen (by omega) hhi
      · rw [if_neg hx]
        have : ¬ _ := fun h => hx (hc.2 h)
        exact searchRight_spec a hs v fuel _ _ (by omega) (by omega) hlo (by omega)
    · rw [if_neg hlt]; omega

variable [IsStrictOrderedRing K]

theorem deepestFirst_depth {rows : List (AggRow K)} (h : Layered rows) :
    rows.Pairwise (fun lo up => up.depth ≤ lo.depth) := by
  refine h.order.imp_of_mem ?_
  intro lo up hlo _ hle
  linarith [h.nonneg lo hlo]

theorem layered_tail {r : AggRow K} {rows : List (AggRow K)} (h : Layered (r :: rows)) :
    Layered rows :=
  ⟨(List.pairwise_cons.1 h.order).2, fun x hx => h.nonneg x (List.mem_cons_of_mem _ hx)⟩

theorem searchRight_rows {rows : List (AggRow K)} (h : Layered rows) (d : K) :
    searchRight (rows.map (·.depth)).reverse d rows.length 0 rows.length =
      (rows.filter (fun r => decide (r.depth ≤ d))).length := by
  have hs : (rows.map (·.depth)).reverse.Pairwise (· ≤ ·) := by
    rw [List.pairwise_reverse, List.pairwise_map]
    exact deepestFirst_depth h
  have hc : ((rows.map (·.depth)).reverse.filter (fun y => decide (y ≤ d))).length =
      (rows.filter (fun r => decide (r.depth ≤ d))).length := by
    rw [List.filter_reverse, List.length_reverse, List.filter_map, List.length_map]
    rfl
  rw [searchRight_spec _ hs d _ _ _ (by omega) (by simp) (by omega) ?_, hc]
  rw [hc]; exact List.length_filter_le _ _

/-- The overlap term as a function of the table. -/
theorem totalIceTo_eq {rows : List (AggRow K)} (h : Layered rows) (d : K) :
    totalIceTo d rows = iceAbove d rows := by
  unfold totalIceTo
  simp only [searchRight_rows h]
  induction rows with
  | nil => simp [iceAbove]
  | cons r rest ih =>
    have hdd := List.pairwise_cons.1 (deepestFirst_depth h)
    have hic := List.pairwise_cons.1 h.order
    have hr0 := h.nonneg r (by simp)
    have ih := ih (layered_tail h)
    have hle := List.length_filter_le (fun r : AggRow K => decide (r.depth ≤ d)) rest
    by_cases hr : r.depth ≤ d
    · have hall : rest.filter (fun r => decide (r.depth ≤ d)) = rest := by
        rw [List.filter_eq_self]; intro x hx
        simpa using (hdd.1 x hx).trans hr
      rw [hall] at ih
      rw [if_neg (by omega)] at ih
      rw [List.filter_cons_of_pos (by simpa using hr), hall, if_neg (by simp)]
      simp only [List.map_cons, List.sum_cons, iceAbove] at ih ⊢
      rw [ih, min_eq_left (by linarith), max_eq_right hr0]
    · rw [List.filter_cons_of_neg (by simpa using hr)]
      have hr' : d < r.depth := not_le.1 hr
      by_cases hcl : (rest.filter (fun r => decide (r.depth ≤ d))).length = rest.length
      · rw [if_neg (by omega)] at ih
        rw [if_pos (by simp; omega), hcl]
        simp only [List.length_cons, Nat.sub_self, List.getElem?_cons_zero]
        rw [ih]
        simp only [iceAbove, List.map_cons, List.sum_cons]
        rw [min_eq_right (by linarith), add_comm]
      · have hlt : (rest.filter (fun r => decide (r.depth ≤ d))).length < rest.length := by omega
        rw [if_pos (by omega)] at ih
        rw [if_pos (by simp; omega)]
        have hidx : (r :: rest).length - ((rest.filter (fun r => decide (r.depth ≤ d))).length + 1)
            = (rest.length - ((rest.filter (fun r => decide (r.depth ≤ d))).length + 1)) + 1 := by
          simp only [List.length_cons]; omega
        rw [hidx, List.getElem?_cons_succ]
        obtain ⟨s, hs, hsd⟩ : ∃ s ∈ rest, ¬ s.depth ≤ d := by
          by_contra hcon
          apply hcl
          congr 1
          rw [List.filter_eq_self]
          intro x hx
          by_contra hx'
          exact hcon ⟨x, hx, by simpa using hx'⟩
        have h1 := hic.1 s hs
        have h2 : d < s.depth := not_le.1 hsd
        have hz : max 0 (min r.ice (d - (r.depth - r.ice))) = 0 := by
          rw [max_eq_left]
          exact (min_le_right _ _).trans (by linarith)
        have : iceAbove d (r :: rest) = iceAbove d rest := by
          simp only [iceAbove, List.map_cons, List.sum_cons]; rw [hz, zero_add]
        rw [this]; exact ih

theorem iceAbove_mono {rows : List (AggRow K)} {d d' : K} (h : d ≤ d') :
    iceAbove d rows ≤ iceAbove d' rows := by
  unfold iceAbove
  apply List.sum_le_sum
  intro r _
  exact max_le_max le_rfl (min_le_min le_rfl (by linarith))

theorem iceAbove_nonneg (rows : List (AggRow K)) (d : K) : 0 ≤ iceAbove d rows := by
  unfold iceAbove
  apply List.sum_nonneg
  intro x hx
  obtain ⟨r, _, rfl⟩ := List.mem_map.1 hx
  exact le_max_left _ _

theorem iceAbove_le_total {rows : List (AggRow K)} (h : ∀ r ∈ rows, 0 ≤ r.ice) (d : K) :
    iceAbove d rows ≤ (rows.map (·.ice)).sum := by
  unfold iceAbove
  apply List.sum_le_sum
  intro r hr
  exact max_le (h r hr) (min_le_left _ _)

theorem iceAbove_full {rows : List (AggRow K)} (h : ∀ r ∈ rows, 0 ≤ r.ice) {d : K}
    (hd : ∀ r ∈ rows, r.depth ≤ d) : iceAbove d rows = (rows.map (·.ice)).sum := by
  unfold iceAbove
  congr 1
  apply List.map_congr_left
  intro r hr
  rw [min_eq_left (by linarith [hd r hr]), max_eq_right (h r hr)]

theorem maxOf_spec (l : List K) : ∀ x, (∀ y ∈ x :: l, y ≤ maxOf x l) ∧ maxOf x l ∈ x :: l := by
  induction l with
  | nil => intro x; simp [maxOf]
  | cons a l ih =>
    intro x
    have h := ih (max x a)
    have he : maxOf x (a :: l) = maxOf (max x a) l := rfl
    rw [he]
    have h1 : max x a ≤ maxOf (max x a) l := h.1 _ (by simp)
    refine ⟨?_, ?_⟩
    · intro y hy
      rcases List.mem_cons.1 hy with rfl | hy
      · exact (le_max_left _ _).trans h1
      · rcases List.mem_cons.1 hy with rfl | hy
        · exact (le_max_right _ _).trans h1
        · exact h.1 y (by simp [hy])
    · rcases List.mem_cons.1 h.2 with h2 | h2
      · rw [h2]; rcases max_choice x a with h3 | h3 <;> simp [h3]
      · simp [h2]

end MoonPIES
