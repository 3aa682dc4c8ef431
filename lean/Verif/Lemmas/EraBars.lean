import Verif.Spec.EraBars
import Mathlib.Tactic.Linarith
import Mathlib.Tactic.NormNum
import Mathlib.Tactic.FieldSimp

/-!
# Lemmas about the bars by era
-/

namespace MoonPIES

open Spec

theorem eraBins_eq : eraBins = [0, 1.1e9, 3.2e9, 3.83e9, 3.97e9, 4.26e9] := by
  unfold eraBins
  norm_num

theorem eraCut (x : ℝ) (l : String) : pdCut eraBins eraLabels.reverse x = some l ↔
    ∃ lo hi, (l, lo, hi) ∈ eraTable ∧ lo < x ∧ x ≤ hi := by
  have hr : eraLabels.reverse = ["Cop.", "Era.", "Imb.", "Nec.", "Pre-Nec."] := rfl
  rw [eraBins_eq, hr]
  unfold pdCut eraTable
  simp only [List.countP_cons, List.countP_nil, decide_eq_true_eq, List.length_cons, List.length_nil,
    List.mem_cons, List.not_mem_nil, or_false, Prod.mk.injEq]
  constructor
  · intro h
    by_cases h0 : x ≤ 0
    · simp [show ¬ (0 : ℝ) < x by linarith, show ¬ (1.1e9 : ℝ) < x by linarith,
        show ¬ (3.2e9 : ℝ) < x by linarith, show ¬ (3.83e9 : ℝ) < x by linarith,
        show ¬ (3.97e9 : ℝ) < x by linarith, show ¬ (4.26e9 : ℝ) < x by linarith] at h
    by_cases h1 : x ≤ 1.1e9
    · simp [show (0 : ℝ) < x by linarith, show ¬ (1.1e9 : ℝ) < x by linarith,
        show ¬ (3.2e9 : ℝ) < x by linarith, show ¬ (3.83e9 : ℝ) < x by linarith,
        show ¬ (3.97e9 : ℝ) < x by linarith, show ¬ (4.26e9 : ℝ) < x by linarith] at h
      exact ⟨0, 1.1e9, by simp [h], by linarith, h1⟩
    by_cases h2 : x ≤ 3.2e9
    · simp [show (0 : ℝ) < x by linarith, show (1.1e9 : ℝ) < x by linarith,
        show ¬ (3.2e9 : ℝ) < x by linarith, show ¬ (3.83e9 : ℝ) < x by linarith,
        show ¬ (3.97e9 : ℝ) < x by linarith, show ¬ (4.26e9 : ℝ) < x by linarith] at h
      exact ⟨1.1e9, 3.2e9, by simp [h], by linarith, h2⟩
    by_cases h3 : x ≤ 3.83e9
    · simp [show (0 : ℝ) < x by linarith, show (1.1e9 : ℝ) < x by linarith,
        show (3.2e9 : ℝ) < x by linarith, show ¬ (3.83e9 : ℝ) < x by linarith,
        show ¬ (3.97e9 : ℝ) < x by linarith, show ¬ (4.26e9 : ℝ) < x by linarith] at h
      exact ⟨3.2e9, 3.83e9, by simp [h], by linarith, h3⟩
    by_cases h4 : x ≤ 3.97e9
    · simp [show (0 : ℝ) < x by linarith, show (1.1e9 : ℝ) < x by linarith,
        show (3.2e9 : ℝ) < x by linarith, show (3.83e9 : ℝ) < x by linarith,
        show ¬ (3.97e9 : ℝ) < x by linarith, show ¬ (4.26e9 : ℝ) < x by linarith] at h
      exact ⟨3.83e9, 3.97e9, by simp [h], by linarith, h4⟩
    by_cases h5 : x ≤ 4.26e9
    · simp [show (0 : ℝ) < x by linarith, show (1.1e9 : ℝ) < x by linarith,
        show (3.2e9 : ℝ) < x by linarith, show (3.83e9 : ℝ) < x by linarith,
        show (3.97e9 : ℝ) < x by linarith, show ¬ (4.26e9 : ℝ) < x by linarith] at h
      exact ⟨3.97e9, 4.26e9, by simp [h], by linarith, h5⟩
    · simp [show (0 : ℝ) < x by linarith, show (1.1e9 : ℝ) < x by linarith,
        show (3.2e9 : ℝ) < x by linarith, show (3.83e9 : ℝ) < x by linarith,
        show (3.97e9 : ℝ) < x by linarith, show (4.26e9 : ℝ) < x by linarith] at h
  · rintro ⟨lo, hi, h, h1, h2⟩
    rcases h with ⟨rfl, rfl, rfl⟩ | ⟨rfl, rfl, rfl⟩ | ⟨rfl, rfl, rfl⟩ | ⟨rfl, rfl, rfl⟩ |
      ⟨rfl, rfl, rfl⟩
    · simp [show (0 : ℝ) < x by linarith, show (1.1e9 : ℝ) < x by linarith,
        show (3.2e9 : ℝ) < x by linarith, show (3.83e9 : ℝ) < x by linarith,
        show (3.97e9 : ℝ) < x by linarith, show ¬ (4.26e9 : ℝ) < x by linarith]
    · simp [show (0 : ℝ) < x by linarith, show (1.1e9 : ℝ) < x by linarith,
        show (3.2e9 : ℝ) < x by linarith, show (3.83e9 : ℝ) < x by linarith,
        show ¬ (3.97e9 : ℝ) < x by linarith, show ¬ (4.26e9 : ℝ) < x by linarith]
    · simp [show (0 : ℝ) < x by linarith, show (1.1e9 : ℝ) < x by linarith,
        show (3.2e9 : ℝ) < x by linarith, show ¬ (3.83e9 : ℝ) < x by linarith,
        show ¬ (3.97e9 : ℝ) < x by linarith, show ¬ (4.26e9 : ℝ) < x by linarith]
    · simp [show (0 : ℝ) < x by linarith, show (1.1e9 : ℝ) < x by linarith,
        show ¬ (3.2e9 : ℝ) < x by linarith, show ¬ (3.83e9 : ℝ) < x by linarith,
        show ¬ (3.97e9 : ℝ) < x by linarith, show ¬ (4.26e9 : ℝ) < x by linarith]
    · simp [show (0 : ℝ) < x by linarith, show ¬ (1.1e9 : ℝ) < x by linarith,
        show ¬ (3.2e9 : ℝ) < x by linarith, show ¬ (3.83e9 : ℝ) < x by linarith,
        show ¬ (3.97e9 : ℝ) < x by linarith, show ¬ (4.26e9 : ℝ) < x by linarith]

/-- The label of an era determines its ages. -/
theorem eraTable_label {l : String} {a b a' b' : ℝ} (h : (l, a, b) ∈ eraTable)
    (h' : (l, a', b') ∈ eraTable) : a' = a ∧ b' = b := by
  simp only [eraTable, List.mem_cons, List.not_mem_nil, or_false, Prod.mk.injEq] at h h'
  rcases h with ⟨rfl, rfl, rfl⟩ | ⟨rfl, rfl, rfl⟩ | ⟨rfl, rfl, rfl⟩ | ⟨rfl, rfl, rfl⟩ |
      ⟨rfl, rfl, rfl⟩ <;> simpa using h'

theorem eraValues_eq (time col : List ℝ) {l : String} {lo hi : ℝ} (h : (l, lo, hi) ∈ eraTable) :
    eraValues time col l = between time col lo hi := by
  unfold eraValues between
  congr 1
  apply List.filter_congr
  intro p _
  apply decide_eq_decide.2
  rw [eraCut]
  constructor
  · rintro ⟨a, b, h1, h2, h3⟩
    obtain ⟨rfl, rfl⟩ := eraTable_label h h1
    exact ⟨h2, h3⟩
  · rintro ⟨h2, h3⟩
    exact ⟨lo, hi, h, h2, h3⟩

theorem eraTable_get {j : Nat} {l : String} {lo hi : ℝ} (h : eraTable[j]? = some (l, lo, hi)) :
    eraLabels[j]? = some l ∧ (l, lo, hi) ∈ eraTable := by
  refine ⟨?_, List.mem_of_getElem? h⟩
  have : eraTable.map (·.1) = eraLabels := rfl
  rw [← this, List.getElem?_map, h]
  rfl

theorem eraMin_spec (l : List ℝ) : ∀ x : ℝ, (∀ y ∈ x :: l, l.foldl min x ≤ y) ∧
    l.foldl min x ∈ x :: l := by
  induction l with
  | nil => intro x; simp
  | cons z l ih =>
    intro x
    obtain ⟨h1, h2⟩ := ih (min x z)
    have h0 := h1 (min x z) (by simp)
    refine ⟨?_, ?_⟩
    · intro y hy
      rw [List.foldl_cons]
      rcases List.mem_cons.1 hy with rfl | hy
      · exact h0.trans (min_le_left _ _)
      rcases List.mem_cons.1 hy with rfl | hy
      · exact h0.trans (min_le_right _ _)
      · exact h1 y (by simp [hy])
    · rw [List.foldl_cons]
      rcases List.mem_cons.1 h2 with e | e
      · rw [e]
        rcases min_choice x z with h | h <;> rw [h] <;> simp
      · simp [e]

theorem eraMax_spec (l : List ℝ) : ∀ x : ℝ, (∀ y ∈ x :: l, y ≤ l.foldl max x) ∧
    l.foldl max x ∈ x :: l := by
  induction l with
  | nil => intro x; simp
  | cons z l ih =>
    intro x
    obtain ⟨h1, h2⟩ := ih (max x z)
    have h0 := h1 (max x z) (by simp)
    refine ⟨?_, ?_⟩
    · intro y hy
      rw [List.foldl_cons]
      rcases List.mem_cons.1 hy with rfl | hy
      · exact (le_max_left _ _).trans h0
      rcases List.mem_cons.1 hy with rfl | hy
      · exact (le_max_right _ _).trans h0
      · exact h1 y (by simp [hy])
    · rw [List.foldl_cons]
      rcases List.mem_cons.1 h2 with e | e
      · rw [e]
        rcases max_choice x z with h | h <;> rw [h] <;> simp
      · simp [e]

/-- The statistics of a nonempty era. -/
theorem eraStat_spec (time col : List ℝ) {l : String} {lo hi : ℝ} (h : (l, lo, hi) ∈ eraTable) :
    (between time col lo hi = [] → eraStat time col l = none) ∧
    (between time col lo hi ≠ [] → ∃ s, eraStat time col l = some s ∧
      s.mean = (between time col lo hi).sum / (between time col lo hi).length ∧
      (∀ y ∈ between time col lo hi, s.min ≤ y ∧ y ≤ s.max) ∧
      s.min ∈ between time col lo hi ∧ s.max ∈ between time col lo hi) := by
  unfold eraStat
  rw [eraValues_eq time col h]
  generalize between time col lo hi = v
  cases v with
  | nil => exact ⟨fun _ => rfl, fun h => absurd rfl h⟩
  | cons x v =>
    refine ⟨fun h => absurd h (by simp), fun _ => ⟨_, rfl, rfl, ?_, ?_, ?_⟩⟩
    · intro y hy
      exact ⟨(eraMin_spec v x).1 y hy, (eraMax_spec v x).1 y hy⟩
    · exact (eraMin_spec v x).2
    · exact (eraMax_spec v x).2

theorem mem_between {time col : List ℝ} {lo hi x : ℝ} : x ∈ between time col lo hi ↔
    ∃ (i : Nat) (t : ℝ), time[i]? = some t ∧ col[i]? = some x ∧ lo < t ∧ t ≤ hi := by
  unfold between
  constructor
  · intro h
    obtain ⟨⟨t, y⟩, h1, rfl⟩ := List.mem_map.1 h
    obtain ⟨h2, h3⟩ := List.mem_filter.1 h1
    obtain ⟨i, hi⟩ := List.mem_iff_getElem?.1 h2
    rw [List.getElem?_zip_eq_some] at hi
    exact ⟨i, t, hi.1, hi.2, (of_decide_eq_true h3).1, (of_decide_eq_true h3).2⟩
  · rintro ⟨i, t, h1, h2, h3, h4⟩
    refine List.mem_map.2 ⟨(t, x), List.mem_filter.2 ⟨?_, by simp [h3, h4]⟩, rfl⟩
    exact List.mem_of_getElem? (List.getElem?_zip_eq_some.2 ⟨h1, h2⟩)

/-- A mean lies between bounds of the values. -/
theorem mean_between (v : List ℝ) (hv : v ≠ []) (a b : ℝ) (h : ∀ y ∈ v, a ≤ y ∧ y ≤ b) :
    a ≤ v.sum / v.length ∧ v.sum / v.length ≤ b := by
  have hl : (0 : ℝ) < v.length := by
    exact_mod_cast List.length_pos_iff.2 hv
  have h1 : v.length • a ≤ v.sum := List.card_nsmul_le_sum v a (fun y hy => (h y hy).1)
  have h2 : v.sum ≤ v.length • b := List.sum_le_card_nsmul v b (fun y hy => (h y hy).2)
  rw [nsmul_eq_mul] at h1 h2
  constructor
  · rw [le_div_iff₀ hl]; linarith
  · rw [div_le_iff₀ hl]; linarith

theorem between_eq (time : List ℝ) (lo hi : ℝ) : ∀ col : List ℝ, col.length = time.length →
    between time col lo hi = ((List.range time.length).filter (fun i =>
      decide (lo < time.getD i 0 ∧ time.getD i 0 ≤ hi))).map (fun i => col.getD i 0) := by
  induction time with
  | nil => intro col _; rfl
  | cons t time ih =>
    intro col h
    cases col with
    | nil => simp at h
    | cons x col =>
      have h' : col.length = time.length := by simpa using h
      have e := ih col h'
      unfold between at e ⊢
      rw [List.length_cons, List.range_succ_eq_map, List.filter_cons]
      simp only [List.zip_cons_cons, List.filter_cons, List.getD_cons_zero, List.filter_map]
      split
      · rw [List.map_cons, List.map_cons, e, List.map_map]
        rfl
      · rw [e, List.map_map]
        rfl

theorem mean_lt (v : List ℝ) (m y z : ℝ) (h : ∀ x ∈ v, x ≤ m) (hy : y ∈ v) (hz : y < m)
    (hv : z = v.sum / v.length) : z < m := by
  have hl : (0 : ℝ) < v.length := by
    exact_mod_cast List.length_pos_iff.2 (List.ne_nil_of_mem hy)
  rw [hv, div_lt_iff₀ hl]
  have : v.sum < (v.map (fun _ => m)).sum := by
    have := List.sum_lt_sum (l := v) (fun x => x) (fun _ => m) h ⟨y, hy, hz⟩
    simpa using this
  rw [List.map_const', List.sum_replicate, nsmul_eq_mul] at this
  linarith

end MoonPIES
