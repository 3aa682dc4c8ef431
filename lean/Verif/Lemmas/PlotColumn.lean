import Verif.Spec.PlotColumn
import Verif.Props.Plot
import Verif.Props.StratLabels

/-!
# Lemmas about the picture of a table
-/

namespace MoonPIES

open Spec

set_option linter.unusedSectionVars false

variable {K : Type} [Field K] [LinearOrder K]

/-! ## Cleaning a table whose neighbours differ -/

theorem markThin_head (m : K) (r : PRow K) (l : List (PRow K)) :
    ∃ r' l', markThin m (r :: l) = r' :: l' ∧ l' = markThin m l ∧
      (r'.label = "Other" ∨ r'.label = r.label) := by
  obtain ⟨b, hb⟩ : ∃ b, markThin m (r :: l) =
      (if r.depth - b < m then { r with label := "Other" } else r) :: markThin m l := by
    cases l <;> exact ⟨_, rfl⟩
  rw [hb]
  refine ⟨_, _, rfl, rfl, ?_⟩
  split
  · exact Or.inl rfl
  · exact Or.inr rfl

/-- After marking, neighbours differ unless they are thin. -/
theorem markThin_chain (m : K) : ∀ (rows : List (PRow K)),
    rows.IsChain (fun a b => a.label ≠ b.label) →
    (markThin m rows).IsChain (fun a b => a.label ≠ b.label ∨ a.label = "Other")
  | [], _ => .nil
  | [r], _ => by
    obtain ⟨r', l', e, e', -⟩ := markThin_head m r []
    rw [e, e']
    exact .singleton _
  | r :: s :: l, h => by
    obtain ⟨h1, h2⟩ := List.isChain_cons_cons.1 h
    have ih := markThin_chain m (s :: l) h2
    obtain ⟨r', l', e, e', hr⟩ := markThin_head m r (s :: l)
    obtain ⟨s', l'', e2, -, hs⟩ := markThin_head m s l
    rw [e, e', e2]
    rw [e2] at ih
    refine .cons_cons ?_ ih
    rcases hr with hr | hr
    · exact Or.inr hr
    · by_cases ho : r'.label = "Other"
      · exact Or.inr ho
      · left
        rcases hs with hs | hs
        · rw [hs]; exact ho
        · rw [hr, hs]; exact h1

/-- Merging leaves the layers alone that differ from their neighbours. -/
theorem merge_filter : ∀ (rows : List (PRow K)),
    rows.IsChain (fun a b => a.label ≠ b.label ∨ a.label = "Other") →
    ((runs (fun r : PRow K => r.label) rows).map aggPRow).filter
        (fun r => decide (r.label ≠ "Other")) =
      rows.filter (fun r => decide (r.label ≠ "Other"))
  | [], _ => rfl
  | [r], _ => by
    have : (runs (fun r : PRow K => r.label) [r]).map aggPRow = [r] := by simp [runs, aggPRow]
    rw [this]
  | r :: s :: l, h => by
    obtain ⟨h1, h2⟩ := List.isChain_cons_cons.1 h
    have ih := merge_filter (s :: l) h2
    obtain ⟨bs, rest, hb⟩ := runs_head (fun r : PRow K => r.label) s l
    have hdef : runs (fun r : PRow K => r.label) (r :: s :: l) =
        if r.label = s.label then (r, s :: bs) :: rest else (r, []) :: (s, bs) :: rest := by
      rw [runs, hb]
    have hlab : ∀ g ∈ runs (fun r : PRow K => r.label) (r :: s :: l),
        (aggPRow g).label = g.1.label := fun g hg => (aggPRow_label hg).1
    have hlab2 : (aggPRow (s, bs)).label = s.label :=
      (aggPRow_label (rows := s :: l) (by rw [hb]; simp)).1
    rw [hb, List.map_cons] at ih
    by_cases he : r.label = s.label
    · have ho : r.label = "Other" := by
        rcases h1 with h1 | h1
        · exact absurd he h1
        · exact h1
      rw [if_pos he] at hdef
      have hl := hlab (r, s :: bs) (by rw [hdef]; simp)
      have hso : s.label = "Other" := he ▸ ho
      rw [hdef, List.map_cons, List.filter_cons_of_neg (by rw [hl]; simp [ho]),
        List.filter_cons_of_neg (by simp [ho]), ← ih,
        List.filter_cons_of_neg (by rw [hlab2]; simp [hso])]
    · rw [if_neg he] at hdef
      have ha : aggPRow (r, []) = r := by simp [aggPRow]
      rw [hdef, List.map_cons, List.map_cons, ha]
      have e : ∀ l' : List (PRow K), (r :: l').filter (fun r => decide (r.label ≠ "Other")) =
          (if r.label ≠ "Other" then [r] else []) ++
            l'.filter (fun r => decide (r.label ≠ "Other")) := by
        intro l'
        by_cases ho : r.label = "Other"
        · rw [List.filter_cons_of_neg (by simp [ho]), if_neg (by simp [ho])]; rfl
        · rw [List.filter_cons_of_pos (by simp [ho]), if_pos ho]; rfl
      rw [e, e (s :: l), ih]

/-- What is left of a table whose neighbours differ: its thick layers. -/
theorem cleanUp_thick {m : K} {rows marked : List (PRow K)} {out : List (CleanRow K)}
    (hch : rows.IsChain (fun a b => a.label ≠ b.label))
    (h : cleanUp m rows = .ok (marked, out)) : out.map (·.toPRow) = thickLayers m rows := by
  rw [(cleanUp_ok h).2, ← markThin_filter]
  unfold mergePRows
  rw [groupRuns_eq]
  exact merge_filter _ (markThin_chain m rows hch)

theorem cleanUp_pct {m : K} {rows marked : List (PRow K)} {out : List (CleanRow K)}
    (h : cleanUp m rows = .ok (marked, out)) :
    ∀ o ∈ out, o.icepct = if o.ice + o.ejecta = 0 then none
      else some (100 * o.ice / (o.ice + o.ejecta)) := by
  unfold cleanUp at h
  by_cases he : rows = []
  · rw [if_pos he] at h
    simp only [Except.ok.injEq, Prod.mk.injEq] at h
    rw [← h.2]; simp
  · rw [if_neg he] at h
    simp only [] at h
    cases hm : mergePRows (markThin m rows) with
    | nil => rw [hm] at h; simp at h
    | cons r0 tl =>
      rw [hm] at h
      simp only [] at h
      split at h
      · simp at h
      · simp only [Except.ok.injEq, Prod.mk.injEq] at h
        rw [← h.2]
        intro o ho
        obtain ⟨r, _, rfl⟩ := List.mem_map.1 ho
        rfl

/-- Thick layers of a table whose depths add up. -/
theorem thickLayers_table (m : K) : ∀ (l : List (StratRow K)),
    (∀ r, l.getLast? = some r → r.depth = r.ice + r.ejecta) →
    (∀ (i : Nat) r r', l[i]? = some r → l[i + 1]? = some r' →
      r.depth = r'.depth + (r.ice + r.ejecta)) →
    thickLayers m (l.map StratRow.toP) =
      (l.filter (fun r => decide (r.label ≠ "Other" ∧ m ≤ r.ice + r.ejecta))).map StratRow.toP
  | [], _, _ => rfl
  | [r], hl, _ => by
    have e : r.depth - 0 = r.ice + r.ejecta := by rw [sub_zero]; exact hl r rfl
    simp only [thickLayers, List.map_cons, List.map_nil, List.tail_cons, List.nil_append,
      List.zip_cons_cons, List.zip_nil_left]
    by_cases hc : r.label ≠ "Other" ∧ m ≤ r.ice + r.ejecta
    · rw [List.filter_cons_of_pos, List.filter_cons_of_pos (by simpa using hc)]
      · rfl
      · rw [decide_eq_true_eq]
        change r.label ≠ "Other" ∧ m ≤ r.depth - 0
        rw [e]; exact hc
    · rw [List.filter_cons_of_neg, List.filter_cons_of_neg (by simpa using hc)]
      · rfl
      · rw [decide_eq_true_eq]
        change ¬ (r.label ≠ "Other" ∧ m ≤ r.depth - 0)
        rw [e]; exact hc
  | r :: s :: tl, hl, hs => by
    have e : r.depth - s.depth = r.ice + r.ejecta := by
      rw [hs 0 r s rfl rfl]; ring
    have ih := thickLayers_table m (s :: tl) (fun x hx => hl x (by
      rw [List.getLast?_cons_cons]; exact hx)) (fun i a b ha hb => hs (i + 1) a b
        (by rw [List.getElem?_cons_succ]; exact ha) (by rw [List.getElem?_cons_succ]; exact hb))
    have hz : thickLayers m ((r :: s :: tl).map StratRow.toP) =
        (if r.label ≠ "Other" ∧ m ≤ r.depth - s.depth then [r.toP] else []) ++
          thickLayers m ((s :: tl).map StratRow.toP) := by
      unfold thickLayers
      simp only [List.map_cons, List.tail_cons, List.cons_append, List.zip_cons_cons]
      by_cases hc : r.label ≠ "Other" ∧ m ≤ r.depth - s.depth
      · rw [if_pos hc, List.filter_cons_of_pos]
        · rfl
        · rw [decide_eq_true_eq]; exact hc
      · rw [if_neg hc, List.filter_cons_of_neg]
        · rfl
        · rw [decide_eq_true_eq]; exact hc
    rw [hz, ih, e]
    by_cases hc : r.label ≠ "Other" ∧ m ≤ r.ice + r.ejecta
    · rw [if_pos hc, List.filter_cons_of_pos (l := s :: tl) (by simpa using hc)]; rfl
    · rw [if_neg hc, List.filter_cons_of_neg (l := s :: tl) (by simpa using hc)]; rfl

/-! ## The table of a run -/

variable [FloorRing K]

theorem merge_cons_new (r : Row K) (rows : List (Row K)) (h : ∀ s ∈ rows, s.label ≠ r.label) :
    mergeAdjacent (r :: rows) = aggRow (r, []) :: mergeAdjacent rows := by
  unfold mergeAdjacent
  rw [groupRuns_eq, groupRuns_eq]
  cases rows with
  | nil => rfl
  | cons s l =>
    obtain ⟨bs, rest, hb⟩ := runs_head (fun r : Row K => r.label) s l
    have hdef : runs (fun r : Row K => r.label) (r :: s :: l) =
        if r.label = s.label then (r, s :: bs) :: rest else (r, []) :: (s, bs) :: rest := by
      rw [runs, hb]
    rw [hdef, if_neg (fun e => h s (by simp) e.symm), hb]
    rfl

/-- The table of a cold trap with a formation row: that row, then layers that hold something, differ
from their neighbours and have depths adding up. -/
theorem table_parts {thickMin tol age : K} {steps : List (Step K)} [IsStrictOrderedRing K]
    (h0 : 0 ≤ thickMin) (hpos : ∀ s ∈ steps, 0 ≤ s.ice ∧ 0 ≤ s.ejecta)
    (hsrc : ∀ s ∈ steps, s.src ≠ "Formation age")
    {table : List (StratRow K)} (h : makeStratCol thickMin tol true age steps = .ok table) :
    ∃ s later f rest, steps.filter (fun s => decide (s.time < age + |age| * tol)) = s :: later ∧
      table = f :: rest ∧ f.label = "Formation age" ∧ f.time = s.time ∧
      (∀ r ∈ rest, r.label ≠ "Formation age" ∧ 0 < r.ice + r.ejecta) ∧
      rest.IsChain (fun a b => a.label ≠ b.label) ∧
      (∀ r ∈ rest, ∃ st ∈ steps, (r.label = st.src ∧ st.src ≠ "") ∨ r.label = "Ice" ∨
        r.label = "Minor source(s)") := by
  obtain ⟨pre, ho, hpre⟩ := makeStratCol_ok h
  rcases hpre with ⟨hf, -⟩ | ⟨-, s, later, hs, rfl⟩
  · cases hf
  obtain ⟨kept, hk⟩ : ∃ t, t = steps.filter
    (fun s => decide (true = true → s.time < age + |age| * tol)) := ⟨_, rfl⟩
  rw [← hk] at ho
  have hkept : ∀ st ∈ kept, st ∈ steps := by
    rw [hk]; intro st hst; exact List.mem_of_mem_filter hst
  have hrows := drop_rows thickMin kept
  obtain ⟨rows, hr⟩ : ∃ t, t = dropUnlabelled (labelRows thickMin kept) := ⟨_, rfl⟩
  rw [← hr] at ho hrows
  have hrow : ∀ r ∈ rows, ∃ st ∈ steps, RowOf thickMin st r ∧
      (thickMin < st.ice ∨ thickMin < st.ejecta) := by
    intro r hrm
    obtain ⟨j, hj⟩ := List.mem_iff_getElem?.1 hrm
    have hjl := (List.getElem?_eq_some_iff.1 hj).1
    have hj' := hrows.length_eq ▸ hjl
    have := (List.forall₂_iff_get.1 hrows).2 j hj' hjl
    rw [show rows.get ⟨j, hjl⟩ = r from (List.getElem?_eq_some_iff.1 hj).2] at this
    obtain ⟨m1, m2⟩ := List.mem_filter.1 (List.get_mem _ ⟨j, hj'⟩)
    exact ⟨_, hkept _ m1, this, by simpa using m2⟩
  have hlab : ∀ r ∈ rows, r.label ≠ "Formation age" := by
    intro r hrm
    obtain ⟨st, hst, ⟨-, -, -, hl⟩, -⟩ := hrow r hrm
    rcases hl with ⟨-, -, e⟩ | ⟨-, -, e⟩ | ⟨-, -, e⟩
    · rw [e]; exact hsrc st hst
    · rw [e]; decide
    · rw [e]; decide
  rw [List.singleton_append, merge_cons_new _ _ hlab] at ho
  obtain ⟨f, hfe, hfr, -⟩ := addDepthPct_cons (aggRow (⟨s.time, 0, 0, "Formation age"⟩, []))
    (mergeAdjacent rows)
  rw [hfe] at ho
  have hrest := addDepthPct_rows (mergeAdjacent rows)
  have hmem : ∀ r ∈ addDepthPct (mergeAdjacent rows), ∃ b : List (Row K), b ≠ [] ∧
      (∀ x ∈ b, x ∈ rows) ∧ Summary b r.row := by
    intro r hrm
    have hm : r.row ∈ mergeAdjacent rows := by rw [← hrest]; exact List.mem_map_of_mem hrm
    obtain ⟨bs, hb, hsum⟩ := merge_isMerge rows
    obtain ⟨i, hi⟩ := List.mem_iff_getElem?.1 hm
    have hil := (List.getElem?_eq_some_iff.1 hi).1
    have hl' : i < bs.length := by rw [hsum.length_eq]; exact hil
    have := (List.forall₂_iff_get.1 hsum).2 i hl' hil
    rw [show (mergeAdjacent rows).get ⟨i, hil⟩ = r.row from (List.getElem?_eq_some_iff.1 hi).2] at this
    refine ⟨_, hb.nonempty _ (List.get_mem _ ⟨i, hl'⟩), ?_, this⟩
    intro x hx
    rw [← hb.flatten, List.mem_flatten]
    exact ⟨_, List.get_mem _ ⟨i, hl'⟩, hx⟩
  refine ⟨s, later, f, addDepthPct (mergeAdjacent rows), hs, ho, ?_, ?_, ?_, ?_, ?_⟩
  · change f.row.label = _; rw [hfr]; rfl
  · change f.row.time = _; rw [hfr]; rfl
  · intro r hrm
    obtain ⟨b, hb1, hb2, hb3, hb4, l, hl1, hl2, -⟩ := hmem r hrm
    have hlm := hb2 l (List.mem_of_getLast? hl1)
    refine ⟨by change r.row.label ≠ _; rw [hl2]; exact hlab l hlm, ?_⟩
    change 0 < r.row.ice + r.row.ejecta
    have hnn : ∀ x ∈ b, 0 ≤ x.ice ∧ 0 ≤ x.ejecta ∧ 0 < x.ice + x.ejecta := by
      intro x hx
      obtain ⟨st, hst, ⟨-, e1, e2, -⟩, hc⟩ := hrow x (hb2 x hx)
      obtain ⟨p1, p2⟩ := hpos st hst
      rw [e1, e2]
      refine ⟨p1, p2, ?_⟩
      rcases hc with hc | hc <;> linarith
    have hsum : r.row.ice + r.row.ejecta = (b.map (fun x => x.ice + x.ejecta)).sum := by
      rw [hb3, hb4, List.sum_map_add]
    rw [hsum]
    cases b with
    | nil => exact absurd rfl hb1
    | cons x xs =>
      rw [List.map_cons, List.sum_cons]
      have h1 := (hnn x (by simp)).2.2
      have h2 : 0 ≤ (xs.map (fun x => x.ice + x.ejecta)).sum := by
        apply List.sum_nonneg
        intro y hy
        obtain ⟨z, hz, rfl⟩ := List.mem_map.1 hy
        exact (hnn z (List.mem_cons_of_mem _ hz)).2.2.le
      linarith
  · have := (C20_labels rows).2
    rw [← hrest, List.map_map, List.isChain_map] at this
    exact this
  · intro r hrm
    obtain ⟨b, -, hb2, -, -, l, hl1, hl2, -⟩ := hmem r hrm
    obtain ⟨st, hst, ⟨-, -, -, hl⟩, -⟩ := hrow l (hb2 l (List.mem_of_getLast? hl1))
    refine ⟨st, hst, ?_⟩
    change (r.row.label = _ ∧ _) ∨ r.row.label = _ ∨ r.row.label = _
    rw [hl2]
    rcases hl with ⟨-, e1, e2⟩ | ⟨-, -, e⟩ | ⟨-, -, e⟩
    · exact Or.inl ⟨e2, e1⟩
    · exact Or.inr (Or.inr e)
    · exact Or.inr (Or.inl e)

end MoonPIES
