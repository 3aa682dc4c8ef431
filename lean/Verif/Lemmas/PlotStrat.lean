import Verif.Model.PlotStrat
import Verif.Props.Labels
import Verif.Props.EjectaTime
import Verif.Lemmas.Thermal
import Verif.Lemmas.MeltLoop
import Verif.Lemmas.Main

/-!
# Helper lemmas for drawing a column
-/

namespace MoonPIES

open Spec

set_option linter.unusedSectionVars false

variable {K : Type} [Field K] [LinearOrder K] [IsStrictOrderedRing K]

/-- Every element twice in a row. -/
def twice {α : Type} (l : List α) : List α := l.flatMap (fun x => [x, x])

theorem twice_get {α : Type} : ∀ (l : List α) (j : Nat), (twice l)[j]? = l[j / 2]?
  | [], j => by simp [twice]
  | a :: l, 0 => by simp [twice]
  | a :: l, 1 => by simp [twice]
  | a :: l, j + 2 => by
    have : (j + 2) / 2 = j / 2 + 1 := by omega
    rw [this]
    simp only [twice, List.flatMap_cons, List.cons_append, List.nil_append,
      List.getElem?_cons_succ]
    exact twice_get l j

theorem twice_length {α : Type} (l : List α) : (twice l).length = 2 * l.length := by
  induction l with
  | nil => rfl
  | cons a l ih => simp only [twice, List.flatMap_cons, List.length_append] at ih ⊢; simp [ih]; omega

theorem twice_perm {α : Type} (l : List α) : (twice l).Perm (l ++ l) := by
  induction l with
  | nil => exact List.Perm.refl _
  | cons a l ih =>
    simp only [twice, List.flatMap_cons, List.cons_append, List.nil_append]
    refine List.Perm.cons a ?_
    refine List.Perm.trans (List.Perm.cons a ih) ?_
    exact List.perm_middle.symm

theorem twice_sorted (l : List (CleanRow K)) (h : l.Pairwise (fun a b => a.depth < b.depth)) :
    (twice l).Pairwise (fun a b => a.depth ≤ b.depth) := by
  induction l with
  | nil => exact List.Pairwise.nil
  | cons a l ih =>
    rw [List.pairwise_cons] at h
    simp only [twice, List.flatMap_cons, List.cons_append, List.nil_append]
    have hm : ∀ b ∈ twice l, a.depth ≤ b.depth := by
      intro b hb
      obtain ⟨x, hx, hb⟩ := List.mem_flatMap.1 hb
      have : b = x := by simpa using hb
      rw [this]; exact (h.1 x hx).le
    refine List.Pairwise.cons ?_ (List.Pairwise.cons hm (ih h.2))
    intro b hb
    rcases List.mem_cons.1 hb with rfl | hb
    · exact le_rfl
    · exact hm b hb

/-- Rows sorted by strictly increasing keys are determined. -/
theorem sorted_twice (sortDepth : List (CleanRow K) → List (CleanRow K))
    (hs : ∀ l, (sortDepth l).Perm l ∧ (sortDepth l).Pairwise (fun a b => a.depth ≤ b.depth))
    (rows layers : List (CleanRow K)) (hp : rows.Perm layers)
    (hl : layers.Pairwise (fun a b => a.depth < b.depth)) :
    sortDepth (rows ++ rows) = twice layers := by
  obtain ⟨h1, h2⟩ := hs (rows ++ rows)
  have hperm : (sortDepth (rows ++ rows)).Perm (twice layers) :=
    h1.trans ((hp.append hp).trans (twice_perm layers).symm)
  refine List.Perm.eq_of_pairwise ?_ h2 (twice_sorted layers hl) hperm
  intro a b ha hb hab hba
  have ha' : a ∈ layers := by
    have := hperm.mem_iff.1 ha
    obtain ⟨x, hx, h⟩ := List.mem_flatMap.1 this
    have : a = x := by simpa using h
    rwa [this]
  have hb' : b ∈ layers := by
    obtain ⟨x, hx, h⟩ := List.mem_flatMap.1 hb
    have : b = x := by simpa using h
    rwa [this]
  by_contra hne
  obtain ⟨i, hi⟩ := List.mem_iff_getElem?.1 ha'
  obtain ⟨j, hj⟩ := List.mem_iff_getElem?.1 hb'
  obtain ⟨hil, hi⟩ := List.getElem?_eq_some_iff.1 hi
  obtain ⟨hjl, hj⟩ := List.getElem?_eq_some_iff.1 hj
  rcases Nat.lt_trichotomy i j with h | h | h
  · have := List.pairwise_iff_getElem.1 hl i j hil hjl h
    rw [hi, hj] at this
    exact absurd hba (not_le.2 this)
  · subst h
    exact hne (by rw [← hi, ← hj])
  · have := List.pairwise_iff_getElem.1 hl j i hjl hil h
    rw [hi, hj] at this
    exact absurd hab (not_le.2 this)

/-! ## Names -/

theorem labelLiths_join : ∀ (ns : List String), ns ≠ [] → (∀ n ∈ ns, ',' ∉ n.toList) →
    labelLiths (joinComma ns) = ns
  | [], h, _ => absurd rfl h
  | [a], _, h => by
    unfold labelLiths
    rw [joinComma, splitComma_free _ (h a (by simp))]
    simp
  | a :: b :: rest, _, h => by
    have ih := labelLiths_join (b :: rest) (by simp) (fun n hn => h n (by simp [hn]))
    unfold labelLiths at ih ⊢
    rw [joinComma, String.toList_append, String.toList_append]
    have : a.toList ++ ",".toList ++ (joinComma (b :: rest)).toList =
        a.toList ++ ',' :: (joinComma (b :: rest)).toList := by simp
    rw [this, splitComma_append, List.map_append, ih, splitComma_free _ (h a (by simp))]
    simp

/-! ## The key of hatches -/

theorem PyDict.get_set_same {α : Type} (d : PyDict α) (k : String) (v : α) :
    (d.set k v).get k = .ok v := by
  induction d with
  | nil => simp [PyDict.set, PyDict.get]
  | cons p d ih =>
    obtain ⟨k', v'⟩ := p
    unfold PyDict.set
    split
    · simp [PyDict.get]
    · rename_i h
      simp [PyDict.get, h, ih]

theorem PyDict.get_set_other {α : Type} (d : PyDict α) (k k' : String) (v : α) (h : k' ≠ k) :
    (d.set k v).get k' = d.get k' := by
  induction d with
  | nil => simp [PyDict.set, PyDict.get, h.symm]
  | cons p d ih =>
    obtain ⟨k'', v'⟩ := p
    unfold PyDict.set
    by_cases e : k'' = k
    · subst e
      simp [PyDict.get, h.symm]
    · rw [if_neg e]
      simp only [PyDict.get, ih]

theorem hatches_length : hatches.length = 35 := by decide +kernel

theorem hatch_index (z : Int) : (z % (hatches.length : Int)).toNat < hatches.length := by
  rw [hatches_length]
  have h1 := Int.emod_nonneg z (show ((35 : Nat) : Int) ≠ 0 by decide)
  have h2 := Int.emod_lt_of_pos z (show (0 : Int) < ((35 : Nat) : Int) by decide)
  omega

/-- The hatch of a source. -/
def patternOf (hash : String → Int) (src : String) : String :=
  if src = "Other" then "" else if src = "Ice" then ".."
  else hatches[(hash src % (hatches.length : Int)).toNat]'(hatch_index _)

theorem lithKey_fold (hash : String → Int) : ∀ (liths : List String) (d : PyDict String),
    ∃ d', liths.foldlM (fun (d : PyDict String) lith => do
        let h ← pyGet hatches (hash lith % (hatches.length : Int)).toNat
        .ok (d.set lith h)) d = (.ok d' : Except PyErr (PyDict String)) ∧
      ∀ s, d'.get s = if s ∈ liths then
        .ok (hatches[(hash s % (hatches.length : Int)).toNat]'(hatch_index _)) else d.get s
  | [], d => ⟨d, rfl, by simp⟩
  | a :: l, d => by
    obtain ⟨d', h1, h2⟩ := lithKey_fold hash l (d.set a
      (hatches[(hash a % (hatches.length : Int)).toNat]'(hatch_index _)))
    refine ⟨d', ?_, ?_⟩
    · rw [List.foldlM_cons]
      rw [pyGet_some (List.getElem?_eq_getElem (hatch_index (hash a)))]
      exact h1
    · intro s
      rw [h2 s]
      by_cases hs : s ∈ l
      · simp [hs]
      · by_cases e : s = a
        · subst e
          simp [hs, PyDict.get_set_same]
        · rw [if_neg hs, if_neg (by simp [hs, e]), PyDict.get_set_other _ _ _ _ e]

theorem lithKey_get (hash : String → Int) (liths : List String) :
    ∃ key, lithKey hash liths = .ok key ∧ ∀ s ∈ liths, key.get s = .ok (patternOf hash s) := by
  obtain ⟨d, h1, h2⟩ := lithKey_fold hash liths []
  refine ⟨_, by unfold lithKey; simp only [bind, Except.bind] at h1 ⊢; rw [h1], ?_⟩
  intro s hs
  unfold patternOf
  by_cases e1 : s = "Other"
  · rw [if_pos e1, e1, PyDict.get_set_same]
  · rw [if_neg e1, PyDict.get_set_other _ _ _ _ e1]
    by_cases e2 : s = "Ice"
    · rw [if_pos e2, e2, PyDict.get_set_same]
    · rw [if_neg e2, PyDict.get_set_other _ _ _ _ e2, h2 s, if_pos hs]

/-! ## The source -/

/-- Sorted by a key, the last is largest. -/
theorem last_largest {l : SizeTable K} (h : l.Pairwise (fun a b => a.2 ≤ b.2)) {x : String × K}
    (hx : l.getLast? = some x) : ∀ y ∈ l, y.2 ≤ x.2 := by
  intro y hy
  obtain ⟨i, hi⟩ := List.mem_iff_getElem?.1 hy
  obtain ⟨hil, hi⟩ := List.getElem?_eq_some_iff.1 hi
  rw [List.getLast?_eq_getElem?] at hx
  obtain ⟨hjl, hx⟩ := List.getElem?_eq_some_iff.1 hx
  rcases Nat.lt_or_ge i (l.length - 1) with hlt | hge
  · have := List.pairwise_iff_getElem.1 h i (l.length - 1) hil hjl hlt
    rw [hi, hx] at this
    exact this
  · have : i = l.length - 1 := by omega
    subst this
    rw [← hi, hx]

theorem locNames_mem (cdf : SizeTable K) (liths : List String) (rows : SizeTable K)
    (h : locNames cdf liths = .ok rows) (r : String × K) :
    r ∈ rows ↔ r ∈ cdf ∧ r.1 ∈ liths := by
  unfold locNames at h
  obtain ⟨parts, hp, h⟩ := bind_ok_inv h
  simp only [Except.ok.injEq] at h
  subst h
  obtain ⟨hl, hi⟩ := mapM_ok_inv _ liths parts hp
  have hpart : ∀ (i : Nat) l, liths[i]? = some l →
      parts[i]? = some (cdf.filter (fun r => decide (r.1 = l))) := by
    intro i l hil
    obtain ⟨b, hb, hb'⟩ := hi i l hil
    rw [hb]
    cases hf : cdf.filter (fun r => decide (r.1 = l)) with
    | nil => rw [hf] at hb'; cases hb'
    | cons x xs => rw [hf] at hb'; cases hb'; rfl
  rw [List.mem_flatten]
  constructor
  · rintro ⟨p, hp, hr⟩
    obtain ⟨i, hip⟩ := List.mem_iff_getElem?.1 hp
    have hil : i < liths.length := by rw [← hl]; exact (List.getElem?_eq_some_iff.1 hip).1
    have := hpart i _ (List.getElem?_eq_getElem hil)
    rw [hip] at this
    cases this
    rw [List.mem_filter, decide_eq_true_eq] at hr
    exact ⟨hr.1, by rw [hr.2]; exact List.getElem_mem hil⟩
  · rintro ⟨h1, h2⟩
    obtain ⟨i, hi'⟩ := List.mem_iff_getElem?.1 h2
    exact ⟨_, List.mem_of_getElem? (hpart i _ hi'), by simp [h1]⟩

theorem locNames_ok (cdf : SizeTable K) (liths : List String)
    (h : ∀ l ∈ liths, ∃ d, (l, d) ∈ cdf) : ∃ rows, locNames cdf liths = .ok rows := by
  unfold locNames
  cases hq : liths.mapM (fun l =>
      match cdf.filter (fun r => decide (r.1 = l)) with
      | [] => (.error .keyError : Except PyErr (SizeTable K))
      | r :: rs => .ok (r :: rs)) with
  | ok parts => exact ⟨parts.flatten, rfl⟩
  | error e =>
    obtain ⟨l, hl, e', he⟩ := (mapM_error_iff _ liths).1 ⟨e, hq⟩
    obtain ⟨d, hd⟩ := h l hl
    cases hf : cdf.filter (fun r => decide (r.1 = l)) with
    | nil =>
      have : (l, d) ∈ cdf.filter (fun r => decide (r.1 = l)) := by simp [hd]
      rw [hf] at this
      cases this
    | cons x xs => rw [hf] at he; cases he

/-! ## Areas -/

theorem spansOf_mem (h : String) : ∀ (l : List (RangeRow K)) (s : K × K), s ∈ spansOf h l ↔
    ∃ (j : Nat) (a b : RangeRow K), l[j]? = some a ∧ l[j + 1]? = some b ∧ a.hatch = h ∧
      b.hatch = h ∧ s = (a.depth, b.depth)
  | [], s => by simp [spansOf]
  | [a], s => by simp [spansOf]
  | a :: b :: rest, s => by
    have ih := spansOf_mem h (b :: rest) s
    have hsplit : (∃ (j : Nat) (x y : RangeRow K), (a :: b :: rest)[j]? = some x ∧
        (a :: b :: rest)[j + 1]? = some y ∧ x.hatch = h ∧ y.hatch = h ∧ s = (x.depth, y.depth)) ↔
        (a.hatch = h ∧ b.hatch = h ∧ s = (a.depth, b.depth)) ∨ s ∈ spansOf h (b :: rest) := by
      rw [ih]
      constructor
      · rintro ⟨j, x, y, h1, h2, h3⟩
        cases j with
        | zero =>
          simp at h1 h2
          subst h1 h2
          exact Or.inl h3
        | succ j => exact Or.inr ⟨j, x, y, by simpa using h1, by simpa using h2, h3⟩
      · rintro (h3 | ⟨j, x, y, h1, h2, h3⟩)
        · exact ⟨0, a, b, by simp, by simp, h3⟩
        · exact ⟨j + 1, x, y, by simpa using h1, by simpa using h2, h3⟩
    rw [hsplit]
    have hdef : spansOf h (a :: b :: rest) = if a.hatch = h ∧ b.hatch = h then
      (a.depth, b.depth) :: spansOf h (b :: rest) else spansOf h (b :: rest) := rfl
    rw [hdef]
    by_cases hc : a.hatch = h ∧ b.hatch = h
    · rw [if_pos hc, List.mem_cons]
      constructor
      · rintro (h3 | h3)
        · exact Or.inl ⟨hc.1, hc.2, h3⟩
        · exact Or.inr h3
      · rintro (h3 | h3)
        · exact Or.inl h3.2.2
        · exact Or.inr h3
    · rw [if_neg hc]
      constructor
      · exact Or.inr
      · rintro (h3 | h3)
        · exact absurd ⟨h3.1, h3.2.1⟩ hc
        · exact h3

/-- An area is seen at depth `d`. -/
def Area.covers (a : Area K) (d : K) : Bool :=
  a.spans.any (fun s => decide (s.1 < d ∧ d < s.2))

/-- The last area covering a depth gives hatch and colour. -/
theorem seen_last (areas : List (Area K)) (d : K) (j : Nat) (a : Area K) (ha : areas[j]? = some a)
    (hc : a.covers d = true) (hl : ∀ (i : Nat) b, j < i → areas[i]? = some b → b.covers d = false) :
    hatchAt areas d = some a.hatch ∧ ∀ p, a.icepct = some p → colourAt areas d = some p := by
  obtain ⟨hj, hja⟩ := List.getElem?_eq_some_iff.1 ha
  have hsplit : areas = areas.take j ++ a :: areas.drop (j + 1) := by
    rw [← hja, List.getElem_cons_drop, List.take_append_drop]
  have hdrop : (areas.drop (j + 1)).filter (fun a => a.covers d) = [] := by
    rw [List.filter_eq_nil_iff]
    intro b hb
    obtain ⟨i, hi⟩ := List.mem_iff_getElem?.1 hb
    rw [List.getElem?_drop] at hi
    rw [hl (j + 1 + i) b (by omega) hi]
    simp
  have hfil : areas.filter (fun a => a.covers d) =
      (areas.take j).filter (fun a => a.covers d) ++ [a] := by
    conv_lhs => rw [hsplit]
    rw [List.filter_append, List.filter_cons_of_pos (p := fun a : Area K => a.covers d) hc, hdrop]
  constructor
  · unfold hatchAt
    change ((areas.filter (fun a => a.covers d)).map _).getLast? = _
    rw [hfil]; simp
  · intro p hp
    unfold colourAt
    change ((areas.filter (fun a => a.covers d)).filterMap _).getLast? = _
    rw [hfil, List.filterMap_append]
    simp [hp]

theorem recolour_get : ∀ (areas : List (Area K)) (seen : List String) (j : Nat) (a : Area K),
    areas[j]? = some a → ∃ a', (recolour seen areas)[j]? = some a' ∧ a'.spans = a.spans ∧
      a'.hatch = a.hatch ∧ a'.label = a.label ∧
      ((a.label ∈ seen ∨ ∃ (i : Nat) (b : Area K), i < j ∧ areas[i]? = some b ∧ b.label = a.label) →
        a'.icepct = a.icepct)
  | [], _, j, a, h => by simp at h
  | x :: l, seen, 0, a, h => by
    simp only [List.getElem?_cons_zero, Option.some.injEq] at h
    subst h
    unfold recolour
    by_cases hx : x.label ∈ seen
    · refine ⟨x, by simp [hx], rfl, rfl, rfl, fun _ => rfl⟩
    · refine ⟨{ x with icepct := some (if x.label = "Ice" then 100 else 0) }, by simp [hx], rfl,
        rfl, rfl, ?_⟩
      rintro (h | ⟨i, b, hi, -⟩)
      · exact absurd h hx
      · omega
  | x :: l, seen, j + 1, a, h => by
    obtain ⟨a', h1, h2, h3, h4, h5⟩ := recolour_get l (x.label :: seen) j a (by simpa using h)
    refine ⟨a', ?_, h2, h3, h4, ?_⟩
    · unfold recolour; simpa using h1
    · rintro (hs | ⟨i, b, hi, hb, hbl⟩)
      · exact h5 (Or.inl (by simp [hs]))
      · cases i with
        | zero =>
          simp only [List.getElem?_cons_zero, Option.some.injEq] at hb
          subst hb
          exact h5 (Or.inl (by simp [hbl]))
        | succ i => exact h5 (Or.inr ⟨i, b, by omega, by simpa using hb, hbl⟩)

theorem recolour_length (areas : List (Area K)) : ∀ (seen : List String),
    (recolour seen areas).length = areas.length := by
  induction areas with
  | nil => intro _; rfl
  | cons a l ih => intro seen; simp [recolour, ih]

end MoonPIES
