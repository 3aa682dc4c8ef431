import Verif.Lemmas.Strat
import Mathlib.Data.Rat.Floor
import Mathlib.Algebra.Order.BigOperators.Group.List
import Mathlib.Tactic.NormNum

/-!
# C20-C24: stratigraphy tables
-/

namespace MoonPIES

open Spec

set_option linter.unusedSectionVars false

variable {K : Type} [Field K] [LinearOrder K]

/-! ## C20 -/

/-- **C20** `merge_adjacent_strata` returns the merged table: maximal blocks of equal
label, each with its total ice and ejecta and the label and time of its last row. -/
theorem C20_merge_spec (rows : List (Row K)) : IsMerge rows (mergeAdjacent rows) :=
  merge_isMerge rows

/-- **C20** and nothing else satisfies that specification. -/
theorem C20_merge_unique (rows out : List (Row K)) (h : IsMerge rows out) :
    out = mergeAdjacent rows := merge_unique h

/-- **C20** total ice and ejecta are conserved. -/
theorem C20_totals (rows : List (Row K)) :
    ((mergeAdjacent rows).map (·.ice)).sum = (rows.map (·.ice)).sum ∧
    ((mergeAdjacent rows).map (·.ejecta)).sum = (rows.map (·.ejecta)).sum := by
  obtain ⟨bs, hb, hs⟩ := merge_isMerge rows
  have := forall₂_summary_totals hs
  rwa [hb.flatten] at this

theorem collapse_head (a : String) (l : List String) :
    ∃ t, collapse (a :: l) = a :: t := by
  induction l generalizing a with
  | nil => exact ⟨_, rfl⟩
  | cons b l ih =>
    simp only [collapse]
    by_cases h : a = b
    · subst h; simpa using ih a
    · simp [h]

theorem collapse_chain (l : List String) : (collapse l).IsChain (· ≠ ·) := by
  induction l with
  | nil => simp [collapse]
  | cons a l ih =>
    cases l with
    | nil => simp [collapse]
    | cons b l =>
      simp only [collapse]
      by_cases h : a = b
      · simpa [h] using ih
      · obtain ⟨t, ht⟩ := collapse_head b l
        rw [if_neg h, ht, List.isChain_cons_cons]
        rw [ht] at ih
        exact ⟨h, ih⟩

theorem runs_labels {α : Type} (lab : α → String) (rows : List α) :
    (runs lab rows).map (fun g => lab g.1) = collapse (rows.map lab) := by
  induction rows with
  | nil => rfl
  | cons a rows ih =>
    cases rows with
    | nil => rfl
    | cons b rows =>
      obtain ⟨bs, rest, h⟩ := runs_head lab b rows
      rw [runs, h]
      rw [h] at ih
      simp only [List.map_cons, collapse] at ih ⊢
      by_cases hab : lab a = lab b
      · simp only [hab, if_true]; rw [← ih]; simp [hab]
      · simp only [hab, if_false]; rw [← ih]; simp

theorem merge_labels (rows : List (Row K)) :
    (mergeAdjacent rows).map (·.label) = collapse (rows.map (·.label)) := by
  rw [← runs_labels]
  unfold mergeAdjacent
  rw [groupRuns_eq, List.map_map]
  apply List.map_congr_left
  intro g hg
  have hc := (runs_blocks (fun r : Row K => r.label) rows).const (toBlock g)
    (List.mem_map.2 ⟨g, hg, rfl⟩)
  have hmem : g.2.getLastD g.1 ∈ toBlock g := by
    rw [toBlock, List.getLastD_eq_getLast?]
    cases h : g.2.getLast? with
    | none => simp
    | some x => simp [List.mem_of_getLast? h]
  exact hc _ hmem g.1 (by simp)

/-- **C20** the labels are the original labels with consecutive repeats collapsed;
so no two adjacent layers share a label. -/
theorem C20_labels (rows : List (Row K)) :
    (mergeAdjacent rows).map (·.label) = collapse (rows.map (·.label)) ∧
    ((mergeAdjacent rows).map (·.label)).IsChain (· ≠ ·) := by
  refine ⟨merge_labels rows, ?_⟩
  rw [merge_labels]
  exact collapse_chain _

/-- **C20** merging again changes nothing. -/
theorem C20_idempotent (rows : List (Row K)) :
    mergeAdjacent (mergeAdjacent rows) = mergeAdjacent rows := by
  symm
  apply merge_unique
  refine ⟨(mergeAdjacent rows).map (fun o => [o]), ⟨?_, ?_, ?_, ?_⟩, ?_⟩
  · induction mergeAdjacent rows with
    | nil => rfl
    | cons a l ih => simp [ih]
  · intro b hb
    obtain ⟨o, _, rfl⟩ := List.mem_map.1 hb
    simp
  · intro b hb
    obtain ⟨o, _, rfl⟩ := List.mem_map.1 hb
    simp
  · have := (C20_labels rows).2
    rw [List.isChain_map] at this ⊢
    exact this.imp (fun a b h => by simpa using h)
  · rw [List.forall₂_map_left_iff, List.forall₂_same]
    intro o _
    exact ⟨by simp, by simp, o, rfl, rfl, rfl⟩

/-- C20 on a table whose label returns after an interruption. -/
def exTable : List (Row ℚ) :=
  [⟨9, 1, 0, "Ice"⟩, ⟨8, 2, 0, "Ice"⟩, ⟨7, 0, 5, "Cabeus"⟩, ⟨6, 1, 0, "Ice"⟩, ⟨5, 3, 0, "Ice"⟩]

example : mergeAdjacent exTable = [⟨8, 3, 0, "Ice"⟩, ⟨7, 0, 5, "Cabeus"⟩, ⟨5, 4, 0, "Ice"⟩] := by
  decide +kernel

/-! ## The finished table -/

variable [FloorRing K]

/-- Forget depth and percentage. -/
def StratRow.row (r : StratRow K) : Row K := ⟨r.time, r.ice, r.ejecta, r.label⟩

theorem suffixSums_length (l : List K) : (suffixSums l).length = l.length := by
  induction l with
  | nil => rfl
  | cons x l ih => simp [suffixSums, ih]

theorem addDepthPct_cons (r : Row K) (rows : List (Row K)) :
    ∃ o, addDepthPct (r :: rows) = o :: addDepthPct rows ∧ o.row = r ∧
      o.depth = r.ice + r.ejecta + (rows.map (fun r => r.ice + r.ejecta)).sum ∧
      o.icepct = if r.ice + r.ejecta = 0 then none
        else some (round4 (100 * r.ice / (r.ice + r.ejecta))) := by
  unfold addDepthPct
  rw [rev_cumsum, rev_cumsum, List.map_cons, suffixSums, List.zipWith_cons_cons]
  exact ⟨_, rfl, rfl, rfl, rfl⟩

theorem addDepthPct_nil : addDepthPct ([] : List (Row K)) = [] := rfl

theorem addDepthPct_rows (rows : List (Row K)) :
    (addDepthPct rows).map StratRow.row = rows := by
  induction rows with
  | nil => rfl
  | cons r rows ih =>
    obtain ⟨o, h, hr, _⟩ := addDepthPct_cons r rows
    rw [h, List.map_cons, hr, ih]

theorem rowLabel_some (thickMin : K) (s : Step K) :
    (rowLabel thickMin s).isSome ↔ thickMin < s.ice ∨ thickMin < s.ejecta := by
  unfold rowLabel
  by_cases h1 : thickMin < s.ice <;> by_cases h2 : thickMin < s.ejecta <;>
    by_cases h3 : s.src = "" <;> simp [h1, h2, h3]

theorem drop_label (thickMin : K) (steps : List (Step K)) :
    ((dropUnlabelled (labelRows thickMin steps)).map (fun r => (r.time, r.ice, r.ejecta))) =
      (steps.filter (fun s => decide (thickMin < s.ice ∨ thickMin < s.ejecta))).map
        (fun s => (s.time, s.ice, s.ejecta)) := by
  induction steps with
  | nil => rfl
  | cons s steps ih =>
    have hs := rowLabel_some thickMin s
    by_cases h : thickMin < s.ice ∨ thickMin < s.ejecta
    · obtain ⟨l, hl⟩ := Option.isSome_iff_exists.1 (hs.2 h)
      rw [List.filter_cons_of_pos (by simpa using h), List.map_cons, ← ih]
      simp [labelRows, dropUnlabelled, hl]
    · have hl : rowLabel thickMin s = none := by
        rw [← Option.not_isSome_iff_eq_none]; exact fun h' => h (hs.1 h')
      rw [List.filter_cons_of_neg (by simpa using h), ← ih]
      simp [labelRows, dropUnlabelled, hl]

theorem labelRows_filter (thickMin : K) (P : K → Bool) (steps : List (Step K)) :
    (labelRows thickMin steps).filter (fun r => P r.2.time) =
      labelRows thickMin (steps.filter (fun s => P s.time)) := by
  unfold labelRows
  rw [List.filter_map]
  rfl

/-- What `makeStratCol` computes before merging. -/
theorem makeStratCol_ok {thickMin tol age : K} {saa : Bool} {steps : List (Step K)}
    {out : List (StratRow K)} (h : makeStratCol thickMin tol saa age steps = .ok out) :
    ∃ pre, out = addDepthPct (mergeAdjacent (pre ++ dropUnlabelled (labelRows thickMin
        (steps.filter (fun s => decide (saa = true → s.time < age + |age| * tol)))))) ∧
      ((saa = false ∧ pre = []) ∨ (saa = true ∧ ∃ s rest,
        steps.filter (fun s => decide (s.time < age + |age| * tol)) = s :: rest ∧
        pre = [⟨s.time, 0, 0, "Formation age"⟩])) := by
  unfold makeStratCol at h
  cases saa with
  | false =>
    simp only [Bool.false_eq_true, if_false] at h
    cases h
    exact ⟨[], by simp, Or.inl ⟨rfl, rfl⟩⟩
  | true =>
    simp only [if_true] at h
    unfold cutAtAge rtolAbs at h
    rw [labelRows_filter thickMin (fun t => decide (t < age + |age| * tol))] at h
    cases hf : steps.filter (fun s => decide (s.time < age + |age| * tol)) with
    | nil => rw [hf] at h; cases h
    | cons s rest =>
      rw [hf] at h
      cases h
      refine ⟨[⟨s.time, 0, 0, "Formation age"⟩], ?_, Or.inr ⟨rfl, s, rest, rfl, rfl⟩⟩
      simp only [forall_const, hf]
      rfl

open Classical in
/-- **C21** the table's total ice and ejecta are the sums over exactly the counted
timesteps. -/
theorem C21_accounting (thickMin tol age : K) (saa : Bool) (steps : List (Step K))
    (out : List (StratRow K)) (h : makeStratCol thickMin tol saa age steps = .ok out) :
    (out.map (·.ice)).sum =
      ((steps.filter (fun s => decide (Counted thickMin tol saa age s))).map (·.ice)).sum ∧
    (out.map (·.ejecta)).sum =
      ((steps.filter (fun s => decide (Counted thickMin tol saa age s))).map (·.ejecta)).sum := by
  obtain ⟨pre, ho, hpre⟩ := makeStratCol_ok h
  have hz : (pre.map (·.ice)).sum = 0 ∧ (pre.map (·.ejecta)).sum = 0 := by
    rcases hpre with ⟨_, rfl⟩ | ⟨_, s, rest, _, rfl⟩ <;> simp
  generalize hf : steps.filter (fun s => decide (saa = true → s.time < age + |age| * tol)) = kept at ho
  have hd := drop_label thickMin kept
  have hk : kept.filter (fun s => decide (thickMin < s.ice ∨ thickMin < s.ejecta)) =
      steps.filter (fun s => decide (Counted thickMin tol saa age s)) := by
    rw [← hf, List.filter_filter]
    apply List.filter_congr
    intro s _
    rw [Bool.eq_iff_iff]
    rw [Bool.and_eq_true, decide_eq_true_iff, decide_eq_true_iff, decide_eq_true_iff]
    exact Iff.rfl
  rw [hk] at hd
  have hm := C20_totals (pre ++ dropUnlabelled (labelRows thickMin kept))
  have hrow := addDepthPct_rows (mergeAdjacent (pre ++ dropUnlabelled (labelRows thickMin kept)))
  rw [← ho] at hrow
  constructor
  · have e1 : out.map (·.ice) = (out.map StratRow.row).map (·.ice) := by
      rw [List.map_map]; rfl
    rw [e1, hrow, hm.1, List.map_append, List.sum_append, hz.1, zero_add]
    have := congrArg (fun l => (l.map (fun p => p.2.1)).sum) hd
    simpa [List.map_map, Function.comp_def] using this
  · have e1 : out.map (·.ejecta) = (out.map StratRow.row).map (·.ejecta) := by
      rw [List.map_map]; rfl
    rw [e1, hrow, hm.2, List.map_append, List.sum_append, hz.2, zero_add]
    have := congrArg (fun l => (l.map (fun p => p.2.2)).sum) hd
    simpa [List.map_map, Function.comp_def] using this

/-! ## C22 -/

theorem addDepthPct_depth (rows : List (Row K)) : ∀ (i : Nat) r, (addDepthPct rows)[i]? = some r →
    r.depth = (((addDepthPct rows).drop i).map (fun r => r.ice + r.ejecta)).sum := by
  induction rows with
  | nil => intro i r h; simp [addDepthPct_nil] at h
  | cons r0 rows ih =>
    intro i r h
    obtain ⟨o, ho, hr, hdep, _⟩ := addDepthPct_cons r0 rows
    rw [ho] at h ⊢
    cases i with
    | zero =>
      simp only [List.getElem?_cons_zero, Option.some.injEq] at h
      subst h
      rw [hdep, List.drop_zero, List.map_cons, List.sum_cons]
      have h1 : o.ice = r0.ice := by rw [← hr]; rfl
      have h2 : o.ejecta = r0.ejecta := by rw [← hr]; rfl
      rw [h1, h2]
      congr 2
      conv_lhs => rw [← addDepthPct_rows rows]
      rw [List.map_map]; rfl
    | succ i =>
      simp only [List.getElem?_cons_succ] at h
      rw [List.drop_succ_cons]
      exact ih i r h

/-- **C22** every depth is the total thickness of that layer and everything above it
(later in the table); so the top depth is the top thickness, each depth exceeds
the one above by the layer's own thickness and the bottom depth is the total. -/
theorem C22_depth_cumulative (thickMin tol age : K) (saa : Bool) (steps : List (Step K))
    (out : List (StratRow K)) (h : makeStratCol thickMin tol saa age steps = .ok out) :
    (∀ (i : Nat) r, out[i]? = some r →
      r.depth = ((out.drop i).map (fun r => r.ice + r.ejecta)).sum) ∧
    (∀ r, out.getLast? = some r → r.depth = r.ice + r.ejecta) ∧
    (∀ (i : Nat) r r', out[i]? = some r → out[i + 1]? = some r' →
      r.depth = r'.depth + (r.ice + r.ejecta)) ∧
    (∀ r, out.head? = some r → r.depth = (out.map (fun r => r.ice + r.ejecta)).sum) := by
  obtain ⟨pre, ho, _⟩ := makeStratCol_ok h
  have key : ∀ (i : Nat) r, out[i]? = some r →
      r.depth = ((out.drop i).map (fun r => r.ice + r.ejecta)).sum := by
    rw [ho]; exact addDepthPct_depth _
  refine ⟨key, ?_, ?_, ?_⟩
  · intro r hr
    rw [List.getLast?_eq_getElem?] at hr
    rw [key _ r hr]
    have hlt : out.length - 1 < out.length := (List.getElem?_eq_some_iff.1 hr).1
    rw [List.drop_eq_getElem_cons hlt, List.drop_eq_nil_of_le (by omega)]
    rw [List.getElem?_eq_getElem hlt] at hr
    injection hr with hr
    simp [hr]
  · intro i r r' hr hr'
    rw [key i r hr, key (i + 1) r' hr']
    have hlt : i < out.length := (List.getElem?_eq_some_iff.1 hr).1
    rw [List.drop_eq_getElem_cons hlt]
    rw [List.getElem?_eq_getElem hlt] at hr
    injection hr with hr
    rw [hr, List.map_cons, List.sum_cons, add_comm]
  · intro r hr
    rw [List.head?_eq_getElem?] at hr
    rw [key 0 r hr, List.drop_zero]

section ordered

variable [IsStrictOrderedRing K]

/-- Each layer adds up rows that come from steps, or from the `Formation age` row. -/
theorem strat_block {thickMin tol age : K} {saa : Bool} {steps : List (Step K)}
    {out : List (StratRow K)} (h : makeStratCol thickMin tol saa age steps = .ok out) :
    ∀ r ∈ out, ∃ l : List (Row K), r.ice = (l.map (·.ice)).sum ∧
      r.ejecta = (l.map (·.ejecta)).sum ∧ ∀ x ∈ l, (x.ice = 0 ∧ x.ejecta = 0) ∨
        ∃ s ∈ steps, x.ice = s.ice ∧ x.ejecta = s.ejecta := by
  obtain ⟨pre, ho, hpre⟩ := makeStratCol_ok h
  generalize hf : steps.filter (fun s => decide (saa = true → s.time < age + |age| * tol)) = kept at ho
  have hkept : ∀ s ∈ kept, s ∈ steps := by
    rw [← hf]; intro s hs; exact List.mem_of_mem_filter hs
  have hall : ∀ r ∈ pre ++ dropUnlabelled (labelRows thickMin kept), (r.ice = 0 ∧ r.ejecta = 0) ∨
        ∃ s ∈ steps, r.ice = s.ice ∧ r.ejecta = s.ejecta := by
    intro r hr
    rcases List.mem_append.1 hr with hr | hr
    · rcases hpre with ⟨_, rfl⟩ | ⟨_, s, rest, _, rfl⟩
      · simp at hr
      · simp only [List.mem_singleton] at hr; subst hr; simp
    · unfold dropUnlabelled labelRows at hr
      rw [List.mem_filterMap] at hr
      obtain ⟨x, hx, hxr⟩ := hr
      obtain ⟨s, hs, rfl⟩ := List.mem_map.1 hx
      rw [Option.map_eq_some_iff] at hxr
      obtain ⟨_, _, rfl⟩ := hxr
      exact Or.inr ⟨s, hkept s hs, rfl, rfl⟩
  intro r hr
  have hrow := addDepthPct_rows (mergeAdjacent (pre ++ dropUnlabelled (labelRows thickMin kept)))
  rw [← ho] at hrow
  have hm : r.row ∈ mergeAdjacent (pre ++ dropUnlabelled (labelRows thickMin kept)) := by
    rw [← hrow]; exact List.mem_map.2 ⟨r, hr, rfl⟩
  unfold mergeAdjacent at hm
  obtain ⟨g, hg, he⟩ := List.mem_map.1 hm
  rw [groupRuns_eq] at hg
  refine ⟨toBlock g, (congrArg Row.ice he).symm, (congrArg Row.ejecta he).symm, ?_⟩
  intro x hx
  apply hall
  rw [← (runs_blocks (fun r : Row K => r.label)
    (pre ++ dropUnlabelled (labelRows thickMin kept))).flatten, List.mem_flatten]
  exact ⟨toBlock g, List.mem_map.2 ⟨g, hg, rfl⟩, hx⟩

/-- Layers hold no negative ice when no step does. -/
theorem strat_ice_nonneg {thickMin tol age : K} {saa : Bool} {steps : List (Step K)}
    (hpos : ∀ s ∈ steps, 0 ≤ s.ice)
    {out : List (StratRow K)} (h : makeStratCol thickMin tol saa age steps = .ok out) :
    ∀ r ∈ out, 0 ≤ r.ice := by
  intro r hr
  obtain ⟨l, h1, -, h3⟩ := strat_block h r hr
  rw [h1]
  apply List.sum_nonneg; intro x hx
  obtain ⟨y, hy, rfl⟩ := List.mem_map.1 hx
  rcases h3 y hy with ⟨e, -⟩ | ⟨s, hs, e, -⟩
  · rw [e]
  · rw [e]; exact hpos s hs

/-- Layers of a table built from non-negative steps are non-negative. -/
theorem strat_nonneg {thickMin tol age : K} {saa : Bool} {steps : List (Step K)}
    (hpos : ∀ s ∈ steps, 0 ≤ s.ice ∧ 0 ≤ s.ejecta)
    {out : List (StratRow K)} (h : makeStratCol thickMin tol saa age steps = .ok out) :
    ∀ r ∈ out, 0 ≤ r.ice ∧ 0 ≤ r.ejecta := by
  intro r hr
  refine ⟨strat_ice_nonneg (fun s hs => (hpos s hs).1) h r hr, ?_⟩
  obtain ⟨l, -, h2, h3⟩ := strat_block h r hr
  rw [h2]
  apply List.sum_nonneg; intro x hx
  obtain ⟨y, hy, rfl⟩ := List.mem_map.1 hx
  rcases h3 y hy with ⟨-, e⟩ | ⟨s, hs, -, e⟩
  · rw [e]
  · rw [e]; exact (hpos s hs).2

/-- **C22** depths never decrease going down (towards the start of the table), and are
bounded by the total. -/
theorem C22_depth_monotone (thickMin tol age : K) (saa : Bool) (steps : List (Step K))
    (hpos : ∀ s ∈ steps, 0 ≤ s.ice ∧ 0 ≤ s.ejecta)
    (out : List (StratRow K)) (h : makeStratCol thickMin tol saa age steps = .ok out) :
    ∀ (i j : Nat) r r', i ≤ j → out[i]? = some r → out[j]? = some r' →
      0 ≤ r'.depth ∧ r'.depth ≤ r.depth := by
  have hn := strat_nonneg hpos h
  obtain ⟨key, _⟩ := C22_depth_cumulative thickMin tol age saa steps out h
  intro i j r r' hij hr hr'
  rw [key i r hr, key j r' hr']
  have hnn : ∀ l : List (StratRow K), (∀ r ∈ l, r ∈ out) →
      0 ≤ (l.map (fun r => r.ice + r.ejecta)).sum := by
    intro l hl
    apply List.sum_nonneg; intro x hx
    obtain ⟨y, hy, rfl⟩ := List.mem_map.1 hx
    exact add_nonneg (hn y (hl y hy)).1 (hn y (hl y hy)).2
  refine ⟨hnn _ (fun r hr => List.mem_of_mem_drop hr), ?_⟩
  obtain ⟨d, rfl⟩ := Nat.exists_eq_add_of_le hij
  rw [← List.drop_drop]
  conv_rhs => rw [← List.take_append_drop d (out.drop i)]
  rw [List.map_append, List.sum_append]
  have := hnn ((out.drop i).take d) (fun r hr => List.mem_of_mem_drop (List.mem_of_mem_take hr))
  linarith

/-! ## C23 -/

theorem round4_bounds {x : K} (h0 : 0 ≤ x) (h1 : x ≤ 100) : 0 ≤ round4 x ∧ round4 x ≤ 100 := by
  unfold round4 roundHalfEven
  simp only []
  have hf0 : 0 ≤ ⌊x * 10000⌋ := by rw [Int.floor_nonneg]; positivity
  have hf1 : ⌊x * 10000⌋ ≤ 1000000 := by
    have : (⌊x * 10000⌋ : K) ≤ 1000000 := (Int.floor_le _).trans (by linarith)
    exact_mod_cast this
  have hup : ⌊x * 10000⌋ + 1 ≤ 1000000 ∨ x * 10000 - ⌊x * 10000⌋ < 1 / 2 := by
    rcases Int.lt_or_le ⌊x * 10000⌋ 1000000 with h | h
    · left; omega
    · right
      have : ⌊x * 10000⌋ = 1000000 := le_antisymm hf1 h
      rw [this]; push_cast; linarith
  have main : ∀ r : Int, (r = ⌊x * 10000⌋ ∨ (r = ⌊x * 10000⌋ + 1 ∧ ¬ x * 10000 - ⌊x * 10000⌋ < 1 / 2)) →
      0 ≤ (r : K) / 10000 ∧ (r : K) / 10000 ≤ 100 := by
    intro r hr
    have hr0 : 0 ≤ r := by rcases hr with h | h <;> omega
    have hr1 : r ≤ 1000000 := by
      rcases hr with h | ⟨h, h2⟩
      · omega
      · rcases hup with h3 | h3
        · omega
        · exact absurd h3 h2
    have hr0' : (0 : K) ≤ r := by exact_mod_cast hr0
    have hr1' : (r : K) ≤ 1000000 := by exact_mod_cast hr1
    constructor
    · positivity
    · rw [div_le_iff₀ (by norm_num)]; linarith
  apply main
  split
  · exact Or.inl rfl
  · next h =>
    split
    · exact Or.inr ⟨rfl, h⟩
    · split
      · exact Or.inl rfl
      · exact Or.inr ⟨rfl, h⟩

/-- `round4` is within half of the last digit. -/
theorem round4_close (x : K) : |round4 x - x| ≤ 1 / 20000 := by
  unfold round4 roundHalfEven
  have h1 := Int.floor_le (x * 10000)
  have h2 := Int.lt_floor_add_one (x * 10000)
  simp only []
  generalize hf : ⌊x * 10000⌋ = f at *
  have main : ∀ r : Int, ((r = f ∧ x * 10000 - f ≤ 1 / 2) ∨ (r = f + 1 ∧ 1 / 2 ≤ x * 10000 - f)) →
      |(r : K) / 10000 - x| ≤ 1 / 20000 := by
    intro r hr
    rw [abs_le]
    rcases hr with ⟨rfl, h3⟩ | ⟨rfl, h3⟩
    · constructor
      · have : (r : K) / 10000 ≥ x - 1 / 20000 := by rw [ge_iff_le, le_div_iff₀ (by norm_num)]; linarith
        linarith
      · have : (r : K) / 10000 ≤ x := by rw [div_le_iff₀ (by norm_num)]; linarith
        linarith
    · push_cast
      constructor
      · have : x ≤ ((f : K) + 1) / 10000 := by rw [le_div_iff₀ (by norm_num)]; linarith
        linarith
      · have : ((f : K) + 1) / 10000 ≤ x + 1 / 20000 := by
          rw [div_le_iff₀ (by norm_num)]; linarith
        linarith
  apply main
  split
  · next h => exact Or.inl ⟨rfl, h.le⟩
  · next h =>
    rw [not_lt] at h
    split
    · exact Or.inr ⟨rfl, h⟩
    · next h' =>
      rw [not_lt] at h'
      split
      · exact Or.inl ⟨rfl, h'⟩
      · exact Or.inr ⟨rfl, h⟩

theorem round4_int (n : Int) : round4 (n : K) = n := by
  unfold round4 roundHalfEven
  have : ⌊(n : K) * 10000⌋ = n * 10000 := by
    rw [show (n : K) * 10000 = ((n * 10000 : Int) : K) by push_cast; ring]
    exact Int.floor_intCast _
  simp only [this]
  rw [if_pos (by push_cast; rw [sub_self]; norm_num)]
  push_cast
  rw [mul_div_assoc, div_self (by norm_num), mul_one]

theorem addDepthPct_pct (rows : List (Row K)) : ∀ r ∈ addDepthPct rows,
    r.icepct = if r.ice + r.ejecta = 0 then none
      else some (round4 (100 * r.ice / (r.ice + r.ejecta))) := by
  induction rows with
  | nil => intro r h; simp [addDepthPct_nil] at h
  | cons r0 rows ih =>
    intro r h
    obtain ⟨o, ho, hr, _, hp⟩ := addDepthPct_cons r0 rows
    rw [ho] at h
    rcases List.mem_cons.1 h with rfl | h
    · rw [hp]; subst hr; rfl
    · exact ih r h

/-- **C23** with non-negative thicknesses: the percentage is missing exactly for rows
of zero thickness; otherwise it is in [0, 100], within 5e-5 of the exact ratio, 100
for pure ice and 0 for pure ejecta. -/
theorem C23_icepct (thickMin tol age : K) (saa : Bool) (steps : List (Step K))
    (hpos : ∀ s ∈ steps, 0 ≤ s.ice ∧ 0 ≤ s.ejecta)
    (out : List (StratRow K)) (h : makeStratCol thickMin tol saa age steps = .ok out) :
    ∀ r ∈ out, (r.icepct = none ↔ r.ice + r.ejecta = 0) ∧
      (∀ p, r.icepct = some p → 0 ≤ p ∧ p ≤ 100 ∧
        |p - 100 * r.ice / (r.ice + r.ejecta)| ≤ 1 / 20000) ∧
      (0 < r.ice → r.ejecta = 0 → r.icepct = some 100) ∧
      (r.ice = 0 → 0 < r.ejecta → r.icepct = some 0) := by
  intro r hr
  obtain ⟨hi, he⟩ := strat_nonneg hpos h r hr
  obtain ⟨pre, ho, _⟩ := makeStratCol_ok h
  rw [ho] at hr
  have hp := addDepthPct_pct _ r hr
  refine ⟨?_, ?_, ?_, ?_⟩
  · rw [hp]
    by_cases h0 : r.ice + r.ejecta = 0 <;> simp [h0]
  · intro p hpp
    rw [hp] at hpp
    by_cases h0 : r.ice + r.ejecta = 0
    · simp [h0] at hpp
    · rw [if_neg h0] at hpp
      injection hpp with hpp
      subst hpp
      have hs : 0 < r.ice + r.ejecta := lt_of_le_of_ne (add_nonneg hi he) (Ne.symm h0)
      obtain ⟨b1, b2⟩ := round4_bounds (x := 100 * r.ice / (r.ice + r.ejecta)) (by positivity)
        (by rw [div_le_iff₀ hs]; linarith)
      exact ⟨b1, b2, round4_close _⟩
  · intro h1 h2
    rw [hp, h2, add_zero, if_neg h1.ne', mul_div_assoc, div_self h1.ne', mul_one]
    exact congrArg some (by exact_mod_cast round4_int (100 : Int))
  · intro h1 h2
    rw [hp, h1, zero_add, if_neg h2.ne', mul_zero, zero_div]
    exact congrArg some (by exact_mod_cast round4_int (0 : Int))

end ordered

/-! ## C24 -/

theorem makeStratCol_fails (thickMin tol age : K) (steps : List (Step K)) :
    (∀ out, makeStratCol thickMin tol true age steps ≠ .ok out) ↔
      ∀ s ∈ steps, age + |age| * tol ≤ s.time := by
  unfold makeStratCol cutAtAge rtolAbs
  simp only [if_true]
  rw [labelRows_filter thickMin (fun t => decide (t < age + |age| * tol))]
  cases hf : steps.filter (fun s => decide (s.time < age + |age| * tol)) with
  | nil =>
    rw [List.filter_eq_nil_iff] at hf
    constructor
    · intro _ s hs
      have := hf s hs
      simpa using this
    · intro _ out hout
      cases hout
  | cons s rest =>
    constructor
    · intro hall
      exact absurd rfl (hall _)
    · intro hall
      exfalso
      have hs : s ∈ steps.filter (fun s => decide (s.time < age + |age| * tol)) := by
        rw [hf]; simp
      rw [List.mem_filter] at hs
      have := hall s hs.1
      have h2 : s.time < age + |age| * tol := by simpa using hs.2
      exact absurd h2 (not_lt.2 this)

/-- **C24** with `strat_after_age`, the table fails, always with an `IndexError`, exactly
when no model time is below the trap's age plus tolerance. -/
theorem C24_fails_iff (thickMin tol age : K) (steps : List (Step K)) (e : PyErr) :
    makeStratCol thickMin tol true age steps = .error e ↔
      e = .indexError ∧ ∀ s ∈ steps, age + |age| * tol ≤ s.time := by
  rw [← makeStratCol_fails thickMin]
  have hcut : ∀ l : List (Option String × Row K), cutAtAge age tol l = .error .indexError ∨ ∃ o, cutAtAge age tol l = .ok o := by
    intro l
    unfold cutAtAge
    split
    · exact Or.inl rfl
    · exact Or.inr ⟨_, rfl⟩
  unfold makeStratCol
  simp only [if_true]
  rcases hcut (labelRows thickMin steps) with h | ⟨o, h⟩
  · rw [h]
    constructor
    · intro h
      injection h with h
      exact ⟨h.symm, fun out h => by cases h⟩
    · rintro ⟨rfl, -⟩; rfl
  · rw [h]
    constructor
    · intro h; cases h
    · rintro ⟨-, h⟩; exact absurd rfl (h _)

theorem dropUnlabelled_times (thickMin : K) (steps : List (Step K)) :
    ((dropUnlabelled (labelRows thickMin steps)).map (·.time)).Sublist (steps.map (·.time)) := by
  have := congrArg (fun l => l.map (fun p => p.1)) (drop_label thickMin steps)
  simp only [List.map_map, Function.comp_def] at this
  rw [this]
  exact List.filter_sublist.map _

theorem runs_times (rows : List (Row K)) :
    (((runs (·.label) rows).map aggRow).map (·.time)).Sublist (rows.map (·.time)) := by
  have hfl := (runs_blocks (fun r : Row K => r.label) rows).flatten
  conv_rhs => rw [← hfl]
  generalize runs (·.label) rows = gs
  induction gs with
  | nil => simp
  | cons g gs ih =>
    rw [List.map_cons, List.map_cons, List.map_cons, List.flatten_cons, List.map_append]
    have : [(aggRow g).time].Sublist ((toBlock g).map (·.time)) := by
      rw [List.singleton_sublist]
      apply List.mem_map.2
      refine ⟨g.2.getLastD g.1, ?_, rfl⟩
      rw [toBlock, List.getLastD_eq_getLast?]
      cases h : g.2.getLast? with
      | none => simp
      | some x => simp [List.mem_of_getLast? h]
    simpa using this.append ih

theorem dropUnlabelled_labels (thickMin : K) (steps : List (Step K)) :
    ∀ r ∈ dropUnlabelled (labelRows thickMin steps), ∃ s ∈ steps, rowLabel thickMin s = some r.label := by
  intro r hr
  unfold dropUnlabelled labelRows at hr
  rw [List.mem_filterMap] at hr
  obtain ⟨x, hx, hxr⟩ := hr
  obtain ⟨s, hs, rfl⟩ := List.mem_map.1 hx
  rw [Option.map_eq_some_iff] at hxr
  obtain ⟨l, hl, rfl⟩ := hxr
  exact ⟨s, hs, by simp only at hl ⊢; rw [hl]; rfl⟩

/-- **C24** with `strat_after_age`, strictly decreasing model times and no ejecta
source called "Formation age": the first row is the zero-thickness formation row
at the first model time within the trap's age, and the layers after it have
strictly decreasing times, all model times within the trap's age and not above the
formation row's time; none of them is labelled "Formation age". -/
theorem C24_time_order (thickMin tol age : K) (steps : List (Step K))
    (hdec : (steps.map (·.time)).Pairwise (· > ·))
    (hsrc : ∀ s ∈ steps, s.src ≠ "Formation age")
    (out : List (StratRow K)) (h : makeStratCol thickMin tol true age steps = .ok out) :
    ∃ r layers s0 rest, out = r :: layers ∧
      steps.filter (fun s => decide (s.time < age + |age| * tol)) = s0 :: rest ∧
      r.label = "Formation age" ∧ r.ice = 0 ∧ r.ejecta = 0 ∧ r.time = s0.time ∧
      (layers.map (·.time)).Pairwise (· > ·) ∧
      (∀ l ∈ layers, l.label ≠ "Formation age" ∧ l.time ≤ s0.time ∧
        l.time < age + |age| * tol ∧ l.time ∈ steps.map (·.time)) := by
  obtain ⟨pre, ho, hpre⟩ := makeStratCol_ok h
  rcases hpre with ⟨h', _⟩ | ⟨_, s0, rest, hf, hp⟩
  · cases h'
  simp only [forall_const] at ho
  subst hp
  generalize hkk : steps.filter (fun s => decide (s.time < age + |age| * tol)) = kept at *
  obtain ⟨tail, htail⟩ : ∃ t, t = dropUnlabelled (labelRows thickMin kept) := ⟨_, rfl⟩
  rw [← htail] at ho
  have hlab : ∀ r ∈ tail, r.label ≠ "Formation age" := by
    intro r hr
    obtain ⟨s, hs, hl⟩ := dropUnlabelled_labels thickMin kept r (htail ▸ hr)
    have hs' : s.src ≠ "Formation age" := by
      apply hsrc s
      rw [← hkk] at hs
      exact List.mem_of_mem_filter hs
    intro he
    rw [he] at hl
    unfold rowLabel at hl
    revert hl
    by_cases h1 : thickMin < s.ice <;> by_cases h2 : thickMin < s.ejecta <;>
      by_cases h3 : s.src = "" <;> simp [h1, h2, h3, hs']
  have hruns : runs (·.label) ((⟨s0.time, 0, 0, "Formation age"⟩ : Row K) :: tail) =
      (⟨s0.time, 0, 0, "Formation age"⟩, []) :: runs (·.label) tail := by
    cases tail with
    | nil => rfl
    | cons x tl =>
      obtain ⟨bs, rs, hh⟩ := runs_head (fun r : Row K => r.label) x tl
      have hx : x.label ≠ "Formation age" := hlab x (by simp)
      rw [runs, hh]
      simp [Ne.symm hx]
  have hmerge : mergeAdjacent ((⟨s0.time, 0, 0, "Formation age"⟩ : Row K) :: tail) =
      ⟨s0.time, 0, 0, "Formation age"⟩ :: mergeAdjacent tail := by
    unfold mergeAdjacent
    rw [groupRuns_eq, groupRuns_eq, hruns, List.map_cons]
    simp [aggRow]
  rw [List.singleton_append, hmerge] at ho
  obtain ⟨o, ho', hrow, _⟩ := addDepthPct_cons (⟨s0.time, 0, 0, "Formation age"⟩ : Row K)
    (mergeAdjacent tail)
  rw [ho'] at ho
  have e1 : (addDepthPct (mergeAdjacent tail)).map (·.time) = (mergeAdjacent tail).map (·.time) := by
    conv_rhs => rw [← addDepthPct_rows (mergeAdjacent tail)]
    rw [List.map_map]; rfl
  have e2 : (addDepthPct (mergeAdjacent tail)).map (·.label) = (mergeAdjacent tail).map (·.label) := by
    conv_rhs => rw [← addDepthPct_rows (mergeAdjacent tail)]
    rw [List.map_map]; rfl
  have hsub : ((mergeAdjacent tail).map (·.time)).Sublist (kept.map (·.time)) := by
    unfold mergeAdjacent
    rw [groupRuns_eq]
    exact (runs_times tail).trans (htail ▸ dropUnlabelled_times thickMin kept)
  have hksub : (kept.map (·.time)).Sublist (steps.map (·.time)) := by
    rw [← hkk]; exact List.filter_sublist.map _
  have hkdec : (kept.map (·.time)).Pairwise (· > ·) := hdec.sublist hksub
  refine ⟨o, _, s0, rest, ho, hf, ?_, ?_, ?_, ?_, ?_, ?_⟩
  · have := congrArg Row.label hrow; exact this
  · have := congrArg Row.ice hrow; exact this
  · have := congrArg Row.ejecta hrow; exact this
  · have := congrArg Row.time hrow; exact this
  · rw [e1]; exact hkdec.sublist hsub
  · intro l hl
    have ht : l.time ∈ kept.map (·.time) := by
      apply hsub.subset
      rw [← e1]; exact List.mem_map.2 ⟨l, hl, rfl⟩
    refine ⟨?_, ?_, ?_, hksub.subset ht⟩
    · have hl' : l.label ∈ (mergeAdjacent tail).map (·.label) := by
        rw [← e2]; exact List.mem_map.2 ⟨l, hl, rfl⟩
      rw [merge_labels, ← runs_labels] at hl'
      obtain ⟨g, hg, hgl⟩ := List.mem_map.1 hl'
      rw [← hgl]
      apply hlab
      rw [← (runs_blocks (fun r : Row K => r.label) tail).flatten, List.mem_flatten]
      exact ⟨toBlock g, List.mem_map.2 ⟨g, hg, rfl⟩, List.mem_cons_self⟩
    · rw [hf, List.map_cons] at ht hkdec
      rcases List.mem_cons.1 ht with h | h
      · exact h.le
      · exact le_of_lt ((List.pairwise_cons.1 hkdec).1 _ h)
    · rw [← hkk] at ht
      obtain ⟨s, hs, hst⟩ := List.mem_map.1 ht
      rw [List.mem_filter] at hs
      rw [← hst]
      simpa using hs.2

/-- C21-C24 on a small column: an old step is cut, a bare step dropped, two ice steps
merged, an unlabelled thick ejecta step becomes "Minor source(s)". -/
def exSteps : List (Step ℚ) :=
  [⟨5, 7, 0, ""⟩, ⟨4, 1, 0, ""⟩, ⟨3, 2, 0, ""⟩, ⟨2, 1, 3, "Cabeus"⟩, ⟨1, 0, 0, ""⟩, ⟨1 / 2, 0, 2, ""⟩]

example : makeStratCol (1 / 1000 : ℚ) (1 / 1000000) true 4 exSteps = .ok
    [⟨0, 0, "Formation age", 4, 9, none⟩, ⟨3, 0, "Ice", 3, 9, some 100⟩,
     ⟨1, 3, "Cabeus", 2, 6, some 25⟩, ⟨0, 2, "Minor source(s)", 1 / 2, 2, some 0⟩] := by
  decide +kernel

example : (∀ s ∈ exSteps, 0 ≤ s.ice ∧ 0 ≤ s.ejecta) ∧
    (exSteps.map (·.time)).Pairwise (· > ·) ∧ (∀ s ∈ exSteps, s.src ≠ "Formation age") := by
  decide +kernel

/-- The failing case of C24. -/
example : makeStratCol (1 / 1000 : ℚ) (1 / 1000000) true (1 / 4) exSteps = .error .indexError := by
  decide +kernel

end MoonPIES
