import Verif.Model.Strat
import Mathlib.Data.List.Dedup

/-!
# C25: the list of all ejecta sources per timestep
-/

namespace MoonPIES

/-- A Python `set` built from a list yields each distinct element once, in some order. -/
def Spec.SetOrder (order : List (List Char) → List (List Char)) : Prop :=
  ∀ l, (order l).Nodup ∧ ∀ x, x ∈ order l ↔ x ∈ l

/-- A source name: non-empty, no comma. -/
def Spec.SourceName (s : List Char) : Prop := s ≠ [] ∧ ',' ∉ s

open Spec

/-- Non-empty items of a comma-separated string. -/
def Spec.items (s : List Char) : List (List Char) := (splitComma s).filter (fun w => decide (w ≠ []))

theorem splitComma_ne (s : List Char) : splitComma s ≠ [] := by
  induction s with
  | nil => simp [splitComma]
  | cons c s ih =>
    unfold splitComma
    by_cases h : c = ','
    · simp [h]
    · rw [if_neg h]; cases splitComma s <;> simp

theorem splitComma_append (a b : List Char) :
    splitComma (a ++ ',' :: b) = splitComma a ++ splitComma b := by
  induction a with
  | nil => simp [splitComma]
  | cons c a ih =>
    rw [List.cons_append]
    by_cases h : c = ','
    · simp [splitComma, h, ih]
    · simp only [splitComma, if_neg h, ih]
      cases hs : splitComma a with
      | nil => exact absurd hs (splitComma_ne a)
      | cons w ws => simp

theorem splitComma_free (s : List Char) (h : ',' ∉ s) : splitComma s = [s] := by
  induction s with
  | nil => rfl
  | cons c s ih =>
    have hc : c ≠ ',' := fun e => h (by simp [e])
    rw [splitComma, if_neg hc, ih (fun e => h (by simp [e]))]

theorem splitComma_items_free (s : List Char) : ∀ w ∈ splitComma s, ',' ∉ w := by
  induction s with
  | nil => simp [splitComma]
  | cons c s ih =>
    by_cases h : c = ','
    · simpa [splitComma, h] using ih
    · rw [splitComma, if_neg h]
      cases hs : splitComma s with
      | nil => exact absurd hs (splitComma_ne s)
      | cons w ws =>
        rw [hs] at ih
        intro x hx
        rcases List.mem_cons.1 hx with rfl | hx
        · intro hm
          rcases List.mem_cons.1 hm with hm | hm
          · exact h hm.symm
          · exact ih w (by simp) hm
        · exact ih x (by simp [hx])

theorem items_append (a b : List Char) : items (a ++ ',' :: b) = items a ++ items b := by
  unfold items; rw [splitComma_append, List.filter_append]

theorem items_nil : items [] = [] := by simp [items, splitComma]

theorem items_free (w : List Char) (h : ',' ∉ w) : items w = if w = [] then [] else [w] := by
  unfold items
  rw [splitComma_free w h]
  by_cases hw : w = [] <;> simp [hw]

theorem items_join (l : List (List Char)) : items (joinChars l) = l.flatMap items := by
  induction l with
  | nil => simpa [joinChars] using items_nil
  | cons a l ih =>
    cases l with
    | nil => simp [joinChars]
    | cons b l => simp only [joinChars, items_append, ih, List.flatMap_cons]

theorem items_dropWhile (s : List Char) : items (s.dropWhile (· == ',')) = items s := by
  induction s with
  | nil => rfl
  | cons c s ih =>
    by_cases h : c = ','
    · subst h
      have : items (',' :: s) = items s := by
        have := items_append [] s
        simpa [items_nil] using this
      rw [this, ← ih]; simp
    · simp [h]

theorem items_dropWhile_rev (s : List Char) : items ((s.dropWhile (· == ',')).reverse) = items s.reverse := by
  induction s with
  | nil => rfl
  | cons c s ih =>
    by_cases h : c = ','
    · subst h
      have : items ((',' :: s).reverse) = items s.reverse := by
        have := items_append s.reverse []
        simpa [items_nil] using this
      rw [this, ← ih]; simp
    · simp [h]

theorem items_strip (s : List Char) : items (stripComma s) = items s := by
  unfold stripComma
  rw [items_dropWhile_rev, List.reverse_reverse, items_dropWhile]

theorem flatMap_items_free : ∀ (l : List (List Char)), (∀ w ∈ l, ',' ∉ w) →
    l.flatMap items = l.filter (fun w => decide (w ≠ [])) := by
  intro l
  induction l with
  | nil => intro _; rfl
  | cons a l ih =>
    intro h
    rw [List.flatMap_cons, ih (fun w hw => h w (by simp [hw])), items_free a (h a (by simp))]
    by_cases ha : a = [] <;> simp [ha]

/-- **C25 refuted (repeatability).** Two set orders, both legitimate, give different
strings for the same labels, so the column differs between processes. -/
theorem C25_repeatable_refuted :
    ¬ ∀ (order order' : List (List Char) → List (List Char)) (labels : List (List (List Char))),
      SetOrder order → SetOrder order' → getAllLabels order labels = getAllLabels order' labels := by
  intro h
  have := h List.dedup (fun l => l.dedup.reverse) [[['A', ',', 'B']]]
    (fun l => ⟨List.nodup_dedup l, fun x => List.mem_dedup⟩)
    (fun l => ⟨List.nodup_reverse.2 (List.nodup_dedup l), fun x => by
      rw [List.mem_reverse, List.mem_dedup]⟩)
  revert this
  decide

/-- **C25 refuted (no empty items).** A trap with no source that step can leave an
empty item in the middle, `"A,,B"`. -/
theorem C25_no_empty_items_refuted :
    ¬ ∀ (order : List (List Char) → List (List Char)) (labels : List (List (List Char))),
      SetOrder order → ∀ s ∈ getAllLabels order labels, s ≠ [] → [] ∉ splitComma s := by
  intro h
  have := h List.dedup [[['A'], [], ['B']]]
    (fun l => ⟨List.nodup_dedup l, fun x => List.mem_dedup⟩) ['A', ',', ',', 'B'] (by decide)
    (by decide)
  revert this
  decide

/-- **C25 (partial).** Full claim: same string on every run, no empty items (both
refuted).  What holds for every set order: the non-empty items of the entry are,
each exactly once, the sources that occur in some cold trap's label that step. -/
theorem C25_names_partial (order : List (List Char) → List (List Char)) (ho : SetOrder order)
    (names : List (List (List Char))) (hn : ∀ l ∈ names, ∀ w ∈ l, SourceName w) :
    (items (allLabelsRow order (names.map joinChars))).Nodup ∧
      ∀ w, w ∈ items (allLabelsRow order (names.map joinChars)) ↔ ∃ l ∈ names, w ∈ l := by
  have hfree := splitComma_items_free (joinChars (names.map joinChars))
  obtain ⟨hnd, hmem⟩ := ho (splitComma (joinChars (names.map joinChars)))
  have e : items (allLabelsRow order (names.map joinChars)) =
      (order (splitComma (joinChars (names.map joinChars)))).filter (fun w => decide (w ≠ [])) := by
    unfold allLabelsRow
    rw [items_strip, items_join, flatMap_items_free]
    intro w hw
    exact hfree w ((hmem w).1 hw)
  rw [e]
  refine ⟨hnd.filter _, ?_⟩
  intro w
  have h1 : w ∈ (order (splitComma (joinChars (names.map joinChars)))).filter
      (fun w => decide (w ≠ [])) ↔ w ∈ items (joinChars (names.map joinChars)) := by
    unfold items
    rw [List.mem_filter, List.mem_filter, hmem]
  rw [h1, items_join, List.flatMap_map, List.mem_flatMap]
  apply exists_congr
  intro l
  apply and_congr_right
  intro hl
  rw [items_join, flatMap_items_free l (fun w hw => (hn l hl w hw).2), List.mem_filter]
  constructor
  · exact fun h => h.1
  · exact fun h => ⟨h, by simpa using (hn l hl w h).1⟩

/-- **C25 (partial)** an entry exists for every timestep. -/
theorem C25_length_partial (order : List (List Char) → List (List Char))
    (labels : List (List (List Char))) :
    (getAllLabels order labels).length = labels.length ∧
      ∀ (i : Nat) row, labels[i]? = some row →
        (getAllLabels order labels)[i]? = some (allLabelsRow order row) := by
  unfold getAllLabels
  refine ⟨by simp, ?_⟩
  intro i row h
  rw [List.getElem?_map, h]; rfl

/-- Three traps, one shared source, one trap without a source. -/
example : items (allLabelsRow List.dedup
    ([[['A'], ['B']], [], [['B'], ['C']]].map joinChars)) = [['A'], ['B'], ['C']] := by decide

end MoonPIES
