import Verif.Lemmas.StratFl
import Verif.Lemmas.Float
import Mathlib.Data.Rat.Floor

/-!
# C88: stratigraphy tables in rounded arithmetic
-/

namespace MoonPIES

open Spec

set_option linter.unusedSectionVars false

variable {K : Type} [Field K] [LinearOrder K] [IsStrictOrderedRing K] [FloorRing K]

/-! ## The exact table is the case without rounding -/

theorem cumsumFl_id (l : List K) : ∀ acc, cumsumFl (fun x => x) acc l = cumsumFrom acc l := by
  induction l with
  | nil => intro; rfl
  | cons x l ih => intro acc; simp [cumsumFl, cumsumFrom, ih]

/-- **C88** without rounding the table is the exact one. -/
theorem C88_exact (thickMin tol age : K) (saa : Bool) (steps : List (Step K)) :
    makeStratColFl (fun x => x) List.sum thickMin tol saa age steps =
      makeStratCol thickMin tol saa age steps := by
  have h : ∀ rows : List (Row K), addDepthPctFl (fun x => x) (mergeAdjacentFl List.sum rows) =
      addDepthPct (mergeAdjacent rows) := by
    intro rows
    unfold addDepthPctFl addDepthPct
    rw [cumsumFl_id]
    rfl
  unfold makeStratColFl makeStratCol
  simp only [h]
  rfl

/-! ## Rows before merging -/

/-- `r` is an empty row or one of the steps. -/
def FromSteps (steps : List (Step K)) (r : Row K) : Prop :=
  (r.ice = 0 ∧ r.ejecta = 0) ∨ ∃ s ∈ steps, r.ice = s.ice ∧ r.ejecta = s.ejecta

theorem labelRows_from {thickMin : K} {steps : List (Step K)} :
    ∀ x ∈ labelRows thickMin steps, FromSteps steps x.2 := by
  intro x hx
  obtain ⟨s, hs, rfl⟩ := List.mem_map.1 hx
  exact Or.inr ⟨s, hs, rfl, rfl⟩

theorem dropUnlabelled_from {steps : List (Step K)} {l : List (Option String × Row K)}
    (h : ∀ x ∈ l, FromSteps steps x.2) : ∀ r ∈ dropUnlabelled l, FromSteps steps r := by
  intro r hr
  unfold dropUnlabelled at hr
  obtain ⟨x, hx, hxr⟩ := List.mem_filterMap.1 hr
  rw [Option.map_eq_some_iff] at hxr
  obtain ⟨_, _, rfl⟩ := hxr
  exact h x hx

theorem dropUnlabelled_length (l : List (Option String × Row K)) :
    (dropUnlabelled l).length ≤ l.length := List.length_filterMap_le _ _

theorem cutAtAgeFl_ok {fl : K → K} {age tol : K} {l out : List (Option String × Row K)}
    (h : cutAtAgeFl fl age tol l = .ok out) :
    out.length ≤ l.length + 1 ∧ ∀ x ∈ out, (x.2.ice = 0 ∧ x.2.ejecta = 0) ∨ x ∈ l := by
  unfold cutAtAgeFl at h
  have hlen := List.length_filter_le
    (fun r : Option String × Row K => decide (r.2.time < fl (age + fl (|age| * tol)))) l
  have hsub : ∀ x ∈ l.filter (fun r => decide (r.2.time < fl (age + fl (|age| * tol)))),
      x ∈ l := fun x hx => List.mem_of_mem_filter hx
  split at h
  · cases h
  · rename_i r rest hf
    rw [hf] at hlen hsub
    injection h with h
    subst h
    refine ⟨by simp only [List.length_cons] at hlen ⊢; omega, ?_⟩
    intro x hx
    rcases List.mem_cons.1 hx with rfl | hx
    · exact Or.inl ⟨rfl, rfl⟩
    · exact Or.inr (hsub x hx)

theorem makeStratColFl_ok {fl : K → K} {agg : List K → K} {thickMin tol age : K} {saa : Bool}
    {steps : List (Step K)} {out : List (StratRow K)}
    (h : makeStratColFl fl agg thickMin tol saa age steps = .ok out) :
    ∃ rows, out = addDepthPctFl fl (mergeAdjacentFl agg rows) ∧
      rows.length ≤ steps.length + 1 ∧ ∀ r ∈ rows, FromSteps steps r := by
  have hl : (labelRows thickMin steps).length = steps.length := by simp [labelRows]
  unfold makeStratColFl at h
  cases saa with
  | false =>
    simp only [Bool.false_eq_true, if_false] at h
    cases h
    refine ⟨_, rfl, ?_, dropUnlabelled_from labelRows_from⟩
    have := dropUnlabelled_length (labelRows thickMin steps)
    omega
  | true =>
    simp only [if_true] at h
    cases hc : cutAtAgeFl fl age tol (labelRows thickMin steps) with
    | error e => rw [hc] at h; cases h
    | ok l =>
      rw [hc] at h
      cases h
      obtain ⟨h1, h2⟩ := cutAtAgeFl_ok hc
      refine ⟨_, rfl, ?_, dropUnlabelled_from ?_⟩
      · have := dropUnlabelled_length l
        omega
      · intro x hx
        rcases h2 x hx with h | h
        · exact Or.inl h
        · exact labelRows_from x h

/-- Rows of a group are rows of the table. -/
theorem groupRuns_mem {rows : List (Row K)} {g : Row K × List (Row K)}
    (hg : g ∈ groupRuns (·.label) rows) : (∀ r ∈ g.1 :: g.2, r ∈ rows) ∧
      (g.1 :: g.2).length ≤ rows.length := by
  rw [groupRuns_eq] at hg
  have hb := (runs_blocks (fun r : Row K => r.label) rows).flatten
  have hm : toBlock g ∈ (runs (fun r : Row K => r.label) rows).map toBlock :=
    List.mem_map.2 ⟨g, hg, rfl⟩
  constructor
  · intro r hr
    rw [← hb, List.mem_flatten]
    exact ⟨toBlock g, hm, hr⟩
  · have := (List.sublist_flatten_of_mem hm).length_le
    rw [hb] at this
    exact this

theorem mergeAdjacentFl_mem {fl : K → K} {agg : List K → K} {n : Nat} {v : K}
    (hs : SumOk fl agg n v) (h : Rounding fl) {steps : List (Step K)}
    (hpos : ∀ s ∈ steps, 0 ≤ s.ice ∧ 0 ≤ s.ejecta)
    (hrep : ∀ s ∈ steps, Repr fl s.ice ∧ Repr fl s.ejecta) {rows : List (Row K)}
    (hr : ∀ r ∈ rows, FromSteps steps r) :
    ∀ r ∈ mergeAdjacentFl agg rows, 0 ≤ r.ice ∧ 0 ≤ r.ejecta ∧ Repr fl r.ice ∧
      Repr fl r.ejecta := by
  intro r hm
  unfold mergeAdjacentFl at hm
  obtain ⟨g, hg, rfl⟩ := List.mem_map.1 hm
  have hg' := (groupRuns_mem hg).1
  have key : ∀ x ∈ g.1 :: g.2, (0 ≤ x.ice ∧ 0 ≤ x.ejecta) ∧ Repr fl x.ice ∧ Repr fl x.ejecta := by
    intro x hx
    rcases hr x (hg' x hx) with ⟨h1, h2⟩ | ⟨s, hs, h1, h2⟩
    · rw [h1, h2]; exact ⟨⟨le_refl _, le_refl _⟩, h.zero, h.zero⟩
    · rw [h1, h2]; exact ⟨hpos s hs, hrep s hs⟩
  refine ⟨hs.nonneg _ ?_, hs.nonneg _ ?_, hs.repr _ ?_, hs.repr _ ?_⟩ <;>
    · intro y hy
      obtain ⟨x, hx, rfl⟩ := List.mem_map.1 hy
      first
      | exact (key x hx).1.1
      | exact (key x hx).1.2
      | exact (key x hx).2.1
      | exact (key x hx).2.2

/-- **C88** in rounded arithmetic the table is still sensible.  Depths never decrease
going down, a layer with thickness never ends above the layer it covers, a percentage
is missing exactly for layers without thickness and otherwise lies between 0 and 100; it
is 0 for layers without ice and 100 for layers without ejecta. -/
theorem C88_sensible {fl : K → K} {u : K} (h : Rounding fl) (he : RelErr fl u) (hu0 : 0 ≤ u)
    (hu : u ≤ 1 / 10000000) (h100 : fl 100 = 100) {agg : List K → K} {n : Nat} {v : K}
    (hs : SumOk fl agg n v) (thickMin tol age : K) (saa : Bool) (steps : List (Step K))
    (hpos : ∀ s ∈ steps, 0 ≤ s.ice ∧ 0 ≤ s.ejecta)
    (hrep : ∀ s ∈ steps, Repr fl s.ice ∧ Repr fl s.ejecta) (out : List (StratRow K))
    (hok : makeStratColFl fl agg thickMin tol saa age steps = .ok out) :
    (∀ (i j : Nat) r r', i ≤ j → out[i]? = some r → out[j]? = some r' →
      0 ≤ r'.depth ∧ r'.depth ≤ r.depth) ∧
    (∀ r ∈ out, 0 ≤ r.ice ∧ 0 ≤ r.ejecta ∧ r.ice ≤ r.depth ∧ r.ejecta ≤ r.depth) ∧
    (∀ r ∈ out, (r.icepct = none ↔ r.ice = 0 ∧ r.ejecta = 0) ∧
      ∀ p, r.icepct = some p → 0 ≤ p ∧ p ≤ 100 ∧ (r.ice = 0 → p = 0) ∧
        (r.ejecta = 0 → p = 100)) := by
  obtain ⟨rows, rfl, -, hrows⟩ := makeStratColFl_ok hok
  have hm := mergeAdjacentFl_mem hs h hpos hrep hrows
  obtain ⟨ms, hms⟩ : ∃ ms, ms = mergeAdjacentFl agg rows := ⟨_, rfl⟩
  rw [← hms] at hm ⊢
  have hth : ∀ r ∈ ms, 0 ≤ fl (r.ice + r.ejecta) := fun r hr =>
    rounding_nonneg h (add_nonneg (hm r hr).1 (hm r hr).2.1)
  have hnn : ∀ l : List (Row K), (∀ r ∈ l, r ∈ ms) →
      0 ≤ suffixFl fl (l.map (fun r => fl (r.ice + r.ejecta))) := by
    intro l hl
    apply suffixFl_nonneg h
    intro x hx
    obtain ⟨r, hr, rfl⟩ := List.mem_map.1 hx
    exact hth r (hl r hr)
  have hcons : ∀ (r : Row K) (l : List (Row K)), (∀ x ∈ r :: l, x ∈ ms) →
      suffixFl fl (l.map (fun r => fl (r.ice + r.ejecta))) ≤
        suffixFl fl ((r :: l).map (fun r => fl (r.ice + r.ejecta))) ∧
      fl (r.ice + r.ejecta) ≤ suffixFl fl ((r :: l).map (fun r => fl (r.ice + r.ejecta))) := by
    intro r l hl
    have h0 := hnn l (fun x hx => hl x (List.mem_cons_of_mem _ hx))
    have h1 := hth r (hl r (List.mem_cons_self))
    rw [List.map_cons, suffixFl]
    constructor
    · have := h.mono (show suffixFl fl (l.map (fun r => fl (r.ice + r.ejecta))) ≤
        suffixFl fl (l.map (fun r => fl (r.ice + r.ejecta))) + fl (r.ice + r.ejecta) by linarith)
      rwa [suffixFl_repr h] at this
    · have := h.mono (show fl (r.ice + r.ejecta) ≤
        suffixFl fl (l.map (fun r => fl (r.ice + r.ejecta))) + fl (r.ice + r.ejecta) by linarith)
      rwa [h.idem] at this
  have hmono : ∀ (d : Nat) (l : List (Row K)), (∀ r ∈ l, r ∈ ms) →
      suffixFl fl ((l.drop d).map (fun r => fl (r.ice + r.ejecta))) ≤
        suffixFl fl (l.map (fun r => fl (r.ice + r.ejecta))) := by
    intro d
    induction d with
    | zero => intro l _; exact le_refl _
    | succ d ih =>
      intro l hl
      cases l with
      | nil => exact le_refl _
      | cons r l =>
        exact le_trans (ih l (fun x hx => hl x (List.mem_cons_of_mem _ hx))) (hcons r l hl).1
  refine ⟨?_, ?_, ?_⟩
  · intro i j r r' hij hr hr'
    rw [addDepthPctFl_getElem, Option.map_eq_some_iff] at hr hr'
    obtain ⟨a, ha, rfl⟩ := hr
    obtain ⟨b, hb, rfl⟩ := hr'
    refine ⟨hnn _ (fun x hx => List.mem_of_mem_drop hx), ?_⟩
    obtain ⟨d, rfl⟩ := Nat.exists_eq_add_of_le hij
    rw [← List.drop_drop]
    exact hmono d _ (fun x hx => List.mem_of_mem_drop hx)
  · intro r hr
    obtain ⟨i, hi⟩ := List.mem_iff_getElem?.1 hr
    rw [addDepthPctFl_getElem, Option.map_eq_some_iff] at hi
    obtain ⟨a, ha, rfl⟩ := hi
    obtain ⟨hlt, hget⟩ := List.getElem?_eq_some_iff.1 ha
    have hmem : a ∈ ms := List.mem_of_getElem? ha
    obtain ⟨a1, a2, a3, a4⟩ := hm a hmem
    have hc := hcons a (ms.drop (i + 1)) (by
      intro x hx
      rcases List.mem_cons.1 hx with rfl | hx
      · exact hmem
      · exact List.mem_of_mem_drop hx)
    rw [List.drop_eq_getElem_cons hlt, hget]
    refine ⟨a1, a2, le_trans ?_ hc.2, le_trans ?_ hc.2⟩
    · have := h.mono (show a.ice ≤ a.ice + a.ejecta by linarith)
      rwa [a3] at this
    · have := h.mono (show a.ejecta ≤ a.ice + a.ejecta by linarith)
      rwa [a4] at this
  · intro r hr
    obtain ⟨i, hi⟩ := List.mem_iff_getElem?.1 hr
    rw [addDepthPctFl_getElem, Option.map_eq_some_iff] at hi
    obtain ⟨a, ha, rfl⟩ := hi
    have hmem : a ∈ ms := List.mem_of_getElem? ha
    obtain ⟨a1, a2, a3, -⟩ := hm a hmem
    exact icePctFl_spec h he hu0 hu h100 a1 a2 a3

/-! ## Distance to the exact table -/

/-- Sums of numbers that are within a share of each other are. -/
theorem sum_within {a b : K} : ∀ (l l' : List K),
    List.Forall₂ (fun x x' => a * x ≤ x' ∧ x' ≤ b * x) l l' →
    a * l.sum ≤ l'.sum ∧ l'.sum ≤ b * l.sum := by
  intro l l' hf
  induction hf with
  | nil => simp
  | cons h1 _ ih =>
    simp only [List.sum_cons, mul_add]
    exact ⟨add_le_add h1.1 ih.1, add_le_add h1.2 ih.2⟩

theorem suffixFl_id (l : List K) : suffixFl (fun x => x) l = l.sum := by
  induction l with
  | nil => rfl
  | cons x l ih => rw [suffixFl, ih, List.sum_cons, add_comm]

theorem addDepthPctFl_length (fl : K → K) (rows : List (Row K)) :
    (addDepthPctFl fl rows).length = rows.length := by
  induction rows with
  | nil => rfl
  | cons r rows ih => rw [addDepthPctFl_cons, List.length_cons, ih, List.length_cons]

/-- **C88** the rounded table is close to the exact one: the same layers, labels and
times; ice and ejecta off by at most the error `v` of the sums; depths off by at most
one rounding per layer and addition; percentages off by at most one in the fourth
decimal.  `hcut` says that no model time falls between the exact and the rounded age
limit. -/
theorem C88_close {fl : K → K} {u v : K} (h : Rounding fl) (he : RelErr fl u) (hu0 : 0 ≤ u)
    (hu : u ≤ 1 / 100000000) (hv0 : 0 ≤ v) (hv : v ≤ 1 / 100000000) {agg : List K → K}
    (thickMin tol age : K) (saa : Bool) (steps : List (Step K))
    (hs : SumOk fl agg (steps.length + 1) v)
    (hpos : ∀ s ∈ steps, 0 ≤ s.ice ∧ 0 ≤ s.ejecta)
    (hcut : saa = true → ∀ s ∈ steps,
      (s.time < age + |age| * tol ↔ s.time < fl (age + fl (|age| * tol))))
    (out : List (StratRow K)) (hok : makeStratCol thickMin tol saa age steps = .ok out) :
    ∃ out', makeStratColFl fl agg thickMin tol saa age steps = .ok out' ∧
      out'.length = out.length ∧
      ∀ (i : Nat) r r', out[i]? = some r → out'[i]? = some r' →
        r'.label = r.label ∧ r'.time = r.time ∧
        |r'.ice - r.ice| ≤ v * r.ice ∧ |r'.ejecta - r.ejecta| ≤ v * r.ejecta ∧
        (1 - u) ^ (out.length + 1) * (1 - v) * r.depth ≤ r'.depth ∧
        r'.depth ≤ (1 + u) ^ (out.length + 1) * (1 + v) * r.depth ∧
        (r'.icepct = none ↔ r.icepct = none) ∧
        ∀ p p', r.icepct = some p → r'.icepct = some p' → |p' - p| ≤ 1 / 10000 + 100 * u := by
  -- both tables come from the same rows
  obtain ⟨rows, hrows1, hrows2, hlen, hfrom⟩ : ∃ rows, out = addDepthPct (mergeAdjacent rows) ∧
      makeStratColFl fl agg thickMin tol saa age steps =
        .ok (addDepthPctFl fl (mergeAdjacentFl agg rows)) ∧
      rows.length ≤ steps.length + 1 ∧ ∀ r ∈ rows, FromSteps steps r := by
    have hl : (labelRows thickMin steps).length = steps.length := by simp [labelRows]
    unfold makeStratCol at hok
    unfold makeStratColFl
    cases saa with
    | false =>
      simp only [Bool.false_eq_true, if_false] at hok ⊢
      cases hok
      refine ⟨_, rfl, rfl, ?_, dropUnlabelled_from labelRows_from⟩
      have := dropUnlabelled_length (labelRows thickMin steps)
      omega
    | true =>
      simp only [if_true] at hok ⊢
      have hc : cutAtAgeFl fl age tol (labelRows thickMin steps) =
          cutAtAge age tol (labelRows thickMin steps) := by
        unfold cutAtAgeFl cutAtAge rtolAbs
        have hf : (labelRows thickMin steps).filter
              (fun r => decide (r.2.time < fl (age + fl (|age| * tol)))) =
            (labelRows thickMin steps).filter
              (fun r => decide (r.2.time < age + |age| * tol)) := by
          apply List.filter_congr
          intro x hx
          obtain ⟨s, hs, rfl⟩ := List.mem_map.1 hx
          exact decide_eq_decide.2 (hcut rfl s hs).symm
        rw [hf]
        generalize (labelRows thickMin steps).filter
          (fun r => decide (r.2.time < age + |age| * tol)) = L
        cases L <;> rfl
      cases hcc : cutAtAge age tol (labelRows thickMin steps) with
      | error e => rw [hcc] at hok; cases hok
      | ok l =>
        rw [hcc] at hok
        rw [hc, hcc]
        cases hok
        obtain ⟨h1, h2⟩ := cutAtAgeFl_ok (hc.trans hcc)
        refine ⟨_, rfl, rfl, ?_, dropUnlabelled_from ?_⟩
        · have := dropUnlabelled_length l
          omega
        · intro x hx
          rcases h2 x hx with h | h
          · exact Or.inl h
          · exact labelRows_from x h
  obtain ⟨G, hG⟩ : ∃ G, G = groupRuns (fun r : Row K => r.label) rows := ⟨_, rfl⟩
  have hms : mergeAdjacent rows = G.map aggRow := by rw [hG]; rfl
  have hms' : mergeAdjacentFl agg rows = G.map (aggRowFl agg) := by rw [hG]; rfl
  have hout : out = addDepthPctFl (fun x => x) (G.map aggRow) := by
    rw [hrows1, hms]
    unfold addDepthPctFl addDepthPct
    rw [cumsumFl_id]
    rfl
  have hlen1 : out.length = G.length := by
    rw [hout, addDepthPctFl_length, List.length_map]
  -- each merged row
  have hrow : ∀ g ∈ G, (0 ≤ (aggRow g).ice ∧ 0 ≤ (aggRow g).ejecta) ∧
      ((1 - v) * (aggRow g).ice ≤ (aggRowFl agg g).ice ∧
        (aggRowFl agg g).ice ≤ (1 + v) * (aggRow g).ice) ∧
      ((1 - v) * (aggRow g).ejecta ≤ (aggRowFl agg g).ejecta ∧
        (aggRowFl agg g).ejecta ≤ (1 + v) * (aggRow g).ejecta) := by
    intro g hg
    rw [hG] at hg
    obtain ⟨g1, g2⟩ := groupRuns_mem hg
    have key : ∀ x ∈ g.1 :: g.2, 0 ≤ x.ice ∧ 0 ≤ x.ejecta := by
      intro x hx
      rcases hfrom x (g1 x hx) with ⟨h1, h2⟩ | ⟨s, hs, h1, h2⟩
      · rw [h1, h2]; exact ⟨le_refl _, le_refl _⟩
      · rw [h1, h2]; exact hpos s hs
    have ki : ∀ y ∈ (g.1 :: g.2).map (·.ice), 0 ≤ y := by
      intro y hy
      obtain ⟨x, hx, rfl⟩ := List.mem_map.1 hy
      exact (key x hx).1
    have ke : ∀ y ∈ (g.1 :: g.2).map (·.ejecta), 0 ≤ y := by
      intro y hy
      obtain ⟨x, hx, rfl⟩ := List.mem_map.1 hy
      exact (key x hx).2
    exact ⟨⟨List.sum_nonneg ki, List.sum_nonneg ke⟩,
      hs.close _ (by rw [List.length_map]; omega) ki,
      hs.close _ (by rw [List.length_map]; omega) ke⟩
  refine ⟨_, hrows2, ?_, ?_⟩
  · rw [hms', addDepthPctFl_length, List.length_map, hlen1]
  · intro i r r' hr hr'
    rw [hout, addDepthPctFl_getElem, Option.map_eq_some_iff] at hr
    rw [hms', addDepthPctFl_getElem, Option.map_eq_some_iff] at hr'
    obtain ⟨a, ha, rfl⟩ := hr
    obtain ⟨a', ha', rfl⟩ := hr'
    rw [List.getElem?_map, Option.map_eq_some_iff] at ha ha'
    obtain ⟨g, hg, rfl⟩ := ha
    obtain ⟨g', hg', rfl⟩ := ha'
    rw [hg] at hg'
    injection hg' with hg'
    subst hg'
    obtain ⟨⟨n1, n2⟩, ⟨i1, i2⟩, e1, e2⟩ := hrow g (List.mem_of_getElem? hg)
    have hdep : (1 - u) ^ (out.length + 1) * (1 - v) *
          suffixFl (fun x => x) (((G.map aggRow).drop i).map (fun r => r.ice + r.ejecta)) ≤
          suffixFl fl (((G.map (aggRowFl agg)).drop i).map (fun r => fl (r.ice + r.ejecta))) ∧
        suffixFl fl (((G.map (aggRowFl agg)).drop i).map (fun r => fl (r.ice + r.ejecta))) ≤
          (1 + u) ^ (out.length + 1) * (1 + v) *
          suffixFl (fun x => x) (((G.map aggRow).drop i).map (fun r => r.ice + r.ejecta)) := by
      rw [suffixFl_id]
      obtain ⟨l, hl⟩ : ∃ l, l = ((G.map aggRow).drop i).map (fun r => r.ice + r.ejecta) := ⟨_, rfl⟩
      obtain ⟨l', hl'⟩ : ∃ l', l' = ((G.map (aggRowFl agg)).drop i).map
        (fun r => fl (r.ice + r.ejecta)) := ⟨_, rfl⟩
      rw [← hl, ← hl']
      rw [← List.map_drop, List.map_map] at hl hl'
      have hmem : ∀ g ∈ G.drop i, g ∈ G := fun g hg => List.mem_of_mem_drop hg
      have hw := sum_within (a := (1 - u) * (1 - v)) (b := (1 + u) * (1 + v)) l l' (by
        rw [hl, hl', List.forall₂_map_left_iff, List.forall₂_map_right_iff, List.forall₂_same]
        intro g hg
        obtain ⟨⟨n1, n2⟩, ⟨i1, i2⟩, e1, e2⟩ := hrow g (hmem g hg)
        have p1 : 0 ≤ (aggRowFl agg g).ice := le_trans (mul_nonneg (by linarith) n1) i1
        have p2 : 0 ≤ (aggRowFl agg g).ejecta := le_trans (mul_nonneg (by linarith) n2) e1
        obtain ⟨b1, b2⟩ := relErr_bounds he (add_nonneg p1 p2)
        constructor
        · refine le_trans (le_of_eq ?_) (le_trans (mul_le_mul_of_nonneg_left
            (add_le_add i1 e1) (by linarith)) b1)
          simp only [Function.comp]; ring
        · refine le_trans b2 (le_trans (mul_le_mul_of_nonneg_left
            (add_le_add i2 e2) (by linarith)) (le_of_eq ?_))
          simp only [Function.comp]; ring)
      have hnl : 0 ≤ l.sum := by
        apply List.sum_nonneg
        intro x hx
        rw [hl] at hx
        obtain ⟨g, hg, rfl⟩ := List.mem_map.1 hx
        exact add_nonneg (hrow g (hmem g hg)).1.1 (hrow g (hmem g hg)).1.2
      have hnl' : ∀ x ∈ l', 0 ≤ x := by
        intro x hx
        rw [hl'] at hx
        obtain ⟨g, hg, rfl⟩ := List.mem_map.1 hx
        obtain ⟨⟨n1, n2⟩, ⟨i1, i2⟩, e1, e2⟩ := hrow g (hmem g hg)
        exact rounding_nonneg h (add_nonneg (le_trans (mul_nonneg (by linarith) n1) i1)
          (le_trans (mul_nonneg (by linarith) n2) e1))
      have hll : l'.length ≤ out.length := by
        rw [hl', List.length_map, List.length_drop, hlen1]; omega
      obtain ⟨c1, c2⟩ := suffixFl_close h he hu0 (by linarith) l' hnl'
      have q1 : (1 - u) ^ out.length ≤ (1 - u) ^ l'.length :=
        pow_le_pow_of_le_one (by linarith) (by linarith) hll
      have q2 : (1 + u) ^ l'.length ≤ (1 + u) ^ out.length :=
        pow_le_pow_right₀ (by linarith) hll
      constructor
      · calc (1 - u) ^ (out.length + 1) * (1 - v) * l.sum
            = (1 - u) ^ out.length * ((1 - u) * (1 - v) * l.sum) := by ring
          _ ≤ (1 - u) ^ l'.length * ((1 - u) * (1 - v) * l.sum) :=
            mul_le_mul_of_nonneg_right q1
              (mul_nonneg (mul_nonneg (by linarith) (by linarith)) hnl)
          _ ≤ (1 - u) ^ l'.length * l'.sum :=
            mul_le_mul_of_nonneg_left hw.1 (pow_nonneg (by linarith) _)
          _ ≤ _ := c1
      · calc _ ≤ (1 + u) ^ l'.length * l'.sum := c2
          _ ≤ (1 + u) ^ l'.length * ((1 + u) * (1 + v) * l.sum) :=
            mul_le_mul_of_nonneg_left hw.2 (pow_nonneg (by linarith) _)
          _ ≤ (1 + u) ^ out.length * ((1 + u) * (1 + v) * l.sum) :=
            mul_le_mul_of_nonneg_right q2
              (mul_nonneg (mul_nonneg (by linarith) (by linarith)) hnl)
          _ = _ := by ring
    have p1 : 0 ≤ (aggRowFl agg g).ice := le_trans (mul_nonneg (by linarith) n1) i1
    have p2 : 0 ≤ (aggRowFl agg g).ejecta := le_trans (mul_nonneg (by linarith) n2) e1
    refine ⟨rfl, rfl, ?_, ?_, hdep.1, hdep.2, ?_, ?_⟩
    · rw [abs_le]; constructor <;> simp only [] <;> linarith
    · rw [abs_le]; constructor <;> simp only [] <;> linarith
    · by_cases h0 : (aggRow g).ice + (aggRow g).ejecta = 0
      · have z1 : (aggRow g).ice = 0 := by linarith
        have z2 : (aggRow g).ejecta = 0 := by linarith
        rw [z1, mul_zero] at i2
        rw [z2, mul_zero] at e2
        have z3 : (aggRowFl agg g).ice = 0 := le_antisymm i2 p1
        have z4 : (aggRowFl agg g).ejecta = 0 := le_antisymm e2 p2
        have y1 : icePctFl fl (aggRowFl agg g).ice (aggRowFl agg g).ejecta = none := by
          unfold icePctFl; rw [z3, z4, add_zero, if_pos h.zero]
        have y2 : icePctFl (fun x => x) (aggRow g).ice (aggRow g).ejecta = none := by
          unfold icePctFl; rw [if_pos h0]
        exact ⟨fun _ => y2, fun _ => y1⟩
      · obtain ⟨p, hp, -⟩ := icePctFl_close h he hu0 hu hv0 hv n1 n2 h0 i1 i2 e1 e2
        have y2 : icePctFl (fun x => x) (aggRow g).ice (aggRow g).ejecta ≠ none := by
          unfold icePctFl; rw [if_neg h0]; simp
        exact ⟨fun hh => absurd (hp.symm.trans hh) (by simp), fun hh => absurd hh y2⟩
    · intro q q' hq hq'
      simp only [] at hq hq'
      by_cases h0 : (aggRow g).ice + (aggRow g).ejecta = 0
      · unfold icePctFl at hq; rw [if_pos h0] at hq; cases hq
      · obtain ⟨p, hp, hclose⟩ := icePctFl_close h he hu0 hu hv0 hv n1 n2 h0 i1 i2 e1 e2
        rw [hp] at hq'
        injection hq' with hq'
        unfold icePctFl at hq
        rw [if_neg h0] at hq
        injection hq with hq
        have hq2 : round4 (100 * (aggRow g).ice / ((aggRow g).ice + (aggRow g).ejecta)) = q := hq
        rw [← hq', ← hq2]
        exact hclose

/-! ## Doubles -/

/-- A sum computed from left to right. -/
def leftSum (fl : K → K) (l : List K) : K := l.foldl (fun a y => fl (a + y)) 0

theorem leftSum_ok {fl : K → K} {u v : K} (h : Rounding fl) (he : RelErr fl u) (hu0 : 0 ≤ u)
    (hu1 : u ≤ 1) {n : Nat} (h1 : (1 + u) ^ n ≤ 1 + v) (h2 : 1 - v ≤ (1 - u) ^ n) :
    SumOk fl (leftSum fl) n v := by
  have e : ∀ l : List K, leftSum fl l = suffixFl fl l.reverse := by
    intro l
    rw [← foldl_suffixFl, List.reverse_reverse]; rfl
  refine ⟨?_, ?_, ?_⟩
  · intro l _
    rw [e]; exact suffixFl_repr h _
  · intro l hl
    rw [e]; exact suffixFl_nonneg h _ (fun x hx => hl x (List.mem_reverse.1 hx))
  · intro l hn hl
    obtain ⟨c1, c2⟩ := suffixFl_close h he hu0 hu1 l.reverse
      (fun x hx => hl x (List.mem_reverse.1 hx))
    rw [List.length_reverse, List.sum_reverse] at c1 c2
    have hs : 0 ≤ l.sum := List.sum_nonneg hl
    rw [e]
    constructor
    · refine le_trans (mul_le_mul_of_nonneg_right (le_trans h2 ?_) hs) c1
      exact pow_le_pow_of_le_one (by linarith) (by linarith) hn
    · refine le_trans c2 (mul_le_mul_of_nonneg_right (le_trans ?_ h1) hs)
      exact pow_le_pow_right₀ (by linarith) hn

theorem pow_small {u : K} (hu0 : 0 ≤ u) {n : Nat} (hn : n * u ≤ 1 / 200000000) (hu1 : u ≤ 1) :
    (1 + u) ^ n ≤ 1 + 1 / 100000000 ∧ 1 - 1 / 100000000 ≤ (1 - u) ^ n := by
  have hb : 1 - n * u ≤ (1 - u) ^ n := by
    have := one_add_mul_le_pow (a := -u) (by linarith) n
    rw [← sub_eq_add_neg] at this
    linarith
  refine ⟨?_, by linarith⟩
  have hp : (1 + u) ^ n * (1 - u) ^ n ≤ 1 := by
    rw [← mul_pow]
    apply pow_le_one₀
    · exact mul_nonneg (by linarith) (by linarith)
    · nlinarith
  have h0 : 0 ≤ (1 + u) ^ n := pow_nonneg (by linarith) n
  have h1 : (1 + u) ^ n * (1 - 1 / 200000000) ≤ 1 :=
    le_trans (mul_le_mul_of_nonneg_left (by linarith) h0) hp
  nlinarith

/-- **C88** the assumptions hold for the numbers of Python: rounding to `p + 1` binary
digits, ties to even, is a `Rounding` with or without gradual underflow; without
underflow its relative error is `2^-(p+1)`; and for doubles (`p = 52`) adding up ten
million numbers one by one is accurate to eight digits, so that `C88_sensible` and
`C88_close` apply. -/
theorem C88_doubles (p : Nat) (lo : Option Int) :
    Rounding (roundFloat p lo : K → K) ∧
    RelErr (roundFloat p none : K → K) (1 / 2 ^ (p + 1)) ∧
    roundFloat 52 none (100 : K) = 100 ∧ (1 : K) / 2 ^ (52 + 1) ≤ 1 / 100000000 ∧
    ∀ n : Nat, n ≤ 10000000 →
      SumOk (roundFloat 52 none) (leftSum (roundFloat 52 none)) n (1 / 100000000 : K) := by
  refine ⟨roundFloat_rounding p lo, roundFloat_relErr p, ?_, by norm_num, ?_⟩
  · have := roundFloat_nat (K := K) 52 100 (by norm_num)
    simpa using this
  · intro n hn
    have hnu : (n : K) * (1 / 2 ^ (52 + 1)) ≤ 1 / 200000000 := by
      have : (n : K) ≤ 10000000 := by exact_mod_cast hn
      calc (n : K) * (1 / 2 ^ (52 + 1)) ≤ 10000000 * (1 / 2 ^ (52 + 1)) :=
            mul_le_mul_of_nonneg_right this (by positivity)
        _ ≤ _ := by norm_num
    obtain ⟨h1, h2⟩ := pow_small (u := (1 : K) / 2 ^ (52 + 1)) (by positivity) hnu (by norm_num)
    exact leftSum_ok (roundFloat_rounding 52 none) (roundFloat_relErr 52) (by positivity)
      (by norm_num) h1 h2

/-- The doubles nearest to 0.1, 0.2 and 0.3. -/
def dbl (n : Nat) : ℚ := roundFloat 52 none ((n : ℚ) / 10)

/-- Three timesteps with thicknesses that are no binary fractions. -/
def exFl : List (Step ℚ) :=
  [⟨30, dbl 1, 0, ""⟩, ⟨20, dbl 2, 0, ""⟩, ⟨10, dbl 3, dbl 1, "Cabeus"⟩]

/-- 0.1 + 0.2 is not 0.3 for doubles, and the table of `exFl` differs from the exact one
in the last digits of the depths only. -/
example : roundFloat 52 none (dbl 1 + dbl 2) ≠ dbl 3 ∧ (∀ s ∈ exFl, 0 ≤ s.ice ∧ 0 ≤ s.ejecta) ∧
    (∀ s ∈ exFl, roundFloat 52 none s.ice = s.ice ∧ roundFloat 52 none s.ejecta = s.ejecta) ∧
    (makeStratColFl (roundFloat 52 none) (leftSum (roundFloat 52 none)) (1 / 100) (1 / 1000000)
      true 30 exFl).map (fun t => t.map (fun r => (r.label, r.icepct))) =
      .ok [("Formation age", none), ("Ice", some 100), ("Cabeus", some 75)] ∧
    (makeStratColFl (roundFloat 52 none) (leftSum (roundFloat 52 none)) (1 / 100) (1 / 1000000)
      true 30 exFl).map (fun t => t.map (·.depth)) ≠
    (makeStratCol (1 / 100) (1 / 1000000) true 30 exFl).map (fun t => t.map (·.depth)) := by
  decide +kernel

end MoonPIES
