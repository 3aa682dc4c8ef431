import Verif.Lemmas.Strat
import Verif.Model.Plot
import Mathlib.Data.Rat.Defs
import Mathlib.Algebra.Order.Ring.Rat

/-!
# C69: cleaning a stratigraphy column for plotting
-/

namespace MoonPIES

open Spec

set_option linter.unusedSectionVars false

variable {K : Type} [Field K] [LinearOrder K]

/-- The layers that are at least `minThick` thick, from one base to the next, and are not already
called `Other`. -/
def Spec.thickLayers (minThick : K) (rows : List (PRow K)) : List (PRow K) :=
  ((rows.zip ((rows.map (·.depth)).tail ++ [0])).filter
    (fun p => decide (p.1.label ≠ "Other" ∧ minThick ≤ p.1.depth - p.2))).map (·.1)

theorem markThin_filter (m : K) (rows : List (PRow K)) :
    (markThin m rows).filter (fun r => decide (r.label ≠ "Other")) = thickLayers m rows := by
  induction rows with
  | nil => rfl
  | cons r rest ih =>
    cases rest with
    | nil =>
      simp only [markThin, thickLayers, List.map_cons, List.map_nil, List.tail_cons,
        List.nil_append, List.zip_cons_cons, List.zip_nil_left]
      by_cases h : r.depth - 0 < m
      · have h' : ¬ m ≤ r.depth - 0 := not_le.2 h
        rw [if_pos h, List.filter_cons_of_neg (by simp),
          List.filter_cons_of_neg (by simp only [h', and_false, decide_false]; simp)]
        rfl
      · have h' : m ≤ r.depth - 0 := not_lt.1 h
        rw [if_neg h]
        by_cases hl : r.label = "Other"
        · rw [List.filter_cons_of_neg (by simp [hl]), List.filter_cons_of_neg (by simp [hl])]
          rfl
        · rw [List.filter_cons_of_pos (by simp [hl]),
            List.filter_cons_of_pos (by exact decide_eq_true ⟨hl, h'⟩)]
          rfl
    | cons s tl =>
      have hz : thickLayers m (r :: s :: tl) =
          (if r.label ≠ "Other" ∧ m ≤ r.depth - s.depth then [r] else []) ++
            thickLayers m (s :: tl) := by
        unfold thickLayers
        simp only [List.map_cons, List.tail_cons, List.cons_append, List.zip_cons_cons]
        by_cases hc : r.label ≠ "Other" ∧ m ≤ r.depth - s.depth
        · rw [List.filter_cons_of_pos (by simpa using hc), if_pos hc]; rfl
        · rw [List.filter_cons_of_neg (by simpa using hc), if_neg hc]; rfl
      rw [hz, ← ih, markThin]
      by_cases h : r.depth - s.depth < m
      · have h' : ¬ m ≤ r.depth - s.depth := not_le.2 h
        rw [if_pos h, List.filter_cons_of_neg (by simp), if_neg (fun hc => h' hc.2)]
        rfl
      · have h' : m ≤ r.depth - s.depth := not_lt.1 h
        rw [if_neg h]
        by_cases hl : r.label = "Other"
        · rw [List.filter_cons_of_neg (by simp [hl]), if_neg (fun hc => hc.1 hl)]; rfl
        · rw [List.filter_cons_of_pos (by simp [hl]), if_pos ⟨hl, h'⟩]; rfl

theorem aggPRow_label {rows : List (PRow K)} {g : PRow K × List (PRow K)}
    (hg : g ∈ runs (fun r : PRow K => r.label) rows) :
    (aggPRow g).label = g.1.label ∧ ∀ x ∈ toBlock g, x.label = g.1.label := by
  have hc := (runs_blocks (fun r : PRow K => r.label) rows).const (toBlock g)
    (List.mem_map.2 ⟨g, hg, rfl⟩)
  refine ⟨?_, fun x hx => hc x hx g.1 (by simp)⟩
  have hmem : g.2.getLastD g.1 ∈ toBlock g := by
    rw [toBlock, List.getLastD_eq_getLast?]
    cases h : g.2.getLast? with
    | none => simp
    | some x => simp [List.mem_of_getLast? h]
  exact hc _ hmem g.1 (by simp)

/-- Adjacent layers of the merged table have different labels. -/
theorem mergePRows_chain (rows : List (PRow K)) :
    (mergePRows rows).IsChain (fun a b => a.label ≠ b.label) := by
  unfold mergePRows
  rw [groupRuns_eq, List.isChain_map]
  have hd := (runs_blocks (fun r : PRow K => r.label) rows).differ
  rw [List.isChain_map] at hd
  have hl : ∀ g ∈ runs (fun r : PRow K => r.label) rows, (aggPRow g).label = g.1.label :=
    fun g hg => (aggPRow_label hg).1
  revert hd hl
  generalize runs (fun r : PRow K => r.label) rows = gs
  intro hd hl
  induction hd with
  | nil => exact .nil
  | singleton a => exact .singleton a
  | cons_cons h1 h2 ih =>
    refine .cons_cons ?_ (ih (fun g hg => hl g (List.mem_cons_of_mem _ hg)))
    rw [hl _ (by simp), hl _ (by simp)]
    exact h1 _ (by simp) _ (by simp)

/-- Merging keeps the total over the layers with labels in any given set. -/
theorem mergePRows_sum (f : PRow K → K) (hf : ∀ g, f (aggPRow g) = ((toBlock g).map f).sum)
    (p : String → Bool) (rows : List (PRow K)) :
    (((mergePRows rows).filter (fun r => p r.label)).map f).sum =
      ((rows.filter (fun r => p r.label)).map f).sum := by
  unfold mergePRows
  rw [groupRuns_eq]
  have hfl := (runs_blocks (fun r : PRow K => r.label) rows).flatten
  have hl : ∀ g ∈ runs (fun r : PRow K => r.label) rows, (aggPRow g).label = g.1.label ∧
      ∀ x ∈ toBlock g, x.label = g.1.label := fun g hg => aggPRow_label hg
  conv_rhs => rw [← hfl]
  clear hfl
  revert hl
  generalize runs (fun r : PRow K => r.label) rows = gs
  intro hl
  induction gs with
  | nil => rfl
  | cons g gs ih =>
    have hg := hl g (by simp)
    have ih := ih (fun g hg => hl g (List.mem_cons_of_mem _ hg))
    simp only [List.map_cons, List.flatten_cons, List.filter_append, List.map_append,
      List.sum_append]
    rw [← ih]
    by_cases hp : p g.1.label = true
    · rw [List.filter_cons_of_pos (by rw [hg.1]; exact hp)]
      have hs : (toBlock g).filter (fun r => p r.label) = toBlock g :=
        List.filter_eq_self.2 (fun x hx => by rw [hg.2 x hx]; exact hp)
      rw [hs]
      rw [List.map_cons, List.sum_cons, hf]
    · rw [List.filter_cons_of_neg (by rw [hg.1]; exact hp)]
      have hs : (toBlock g).filter (fun r => p r.label) = [] :=
        List.filter_eq_nil_iff.2 (fun x hx => by rw [hg.2 x hx]; exact hp)
      rw [hs]
      simp

/-- The missing label used for `Other` layers. -/
abbrev relabel (r : PRow K) : Option String × PRow K :=
  (if r.label = "Other" then none else some r.label, r)

theorem mergeNullable_fold : ∀ (rows : List (PRow K)) (prev : Option String) (c : Nat)
    (G : List ((String × Nat) × PRow K × List (PRow K))),
    (∀ g ∈ G, g.1.2 ≤ c) → rows.IsChain (fun a b => a.label ≠ b.label) →
    (∀ r, rows.head? = some r → prev ≠ some r.label) →
    ((adjKeysOpt prev c (rows.map relabel)).foldl (fun gs ka => groupInsert ka.1 ka.2 gs) G).map
      (·.2) = G.map (·.2) ++
        (rows.filter (fun r => decide (r.label ≠ "Other"))).map (fun r => (r, []))
  | [], prev, c, G, _, _, _ => by simp [adjKeysOpt]
  | r :: rows, prev, c, G, hG, hch, hp => by
    have htl : rows.IsChain (fun a b => a.label ≠ b.label) := hch.tail
    have hnext : ∀ r', rows.head? = some r' → r.label ≠ r'.label := by
      intro r' h
      cases rows with
      | nil => simp at h
      | cons x xs =>
        simp only [List.head?_cons, Option.some.injEq] at h
        subst h
        exact (List.isChain_cons_cons.1 hch).1
    by_cases hr : r.label = "Other"
    · rw [List.map_cons, relabel, if_pos hr, List.filter_cons_of_neg (by simp [hr])]
      simp only [adjKeysOpt]
      exact mergeNullable_fold rows none (c + 1) G (fun g hg => Nat.le_succ_of_le (hG g hg)) htl
        (fun _ _ => by simp)
    · rw [List.map_cons, relabel, if_neg hr, List.filter_cons_of_pos (by simp [hr])]
      simp only [adjKeysOpt]
      rw [if_neg (hp r rfl), List.foldl_cons, groupInsert_new _ _ _ ?_]
      · rw [mergeNullable_fold rows (some r.label) (c + 1) _ ?_ htl ?_]
        · simp
        · intro g hg
          rcases List.mem_append.1 hg with hg | hg
          · exact Nat.le_succ_of_le (hG g hg)
          · simp only [List.mem_singleton] at hg; subst hg; exact le_rfl
        · intro r' hr' he
          exact hnext r' hr' (Option.some.inj he)
      · intro g hg he
        have h1 := hG g hg
        have h2 := congrArg Prod.snd he
        simp only at h2
        omega

/-- The second merge only drops the layers without label. -/
theorem mergeNullable_relabel (rows : List (PRow K))
    (h : rows.IsChain (fun a b => a.label ≠ b.label)) :
    mergeNullable (rows.map relabel) = rows.filter (fun r => decide (r.label ≠ "Other")) := by
  unfold mergeNullable
  have := mergeNullable_fold rows none 0 [] (by simp) h (fun _ _ => by simp)
  rw [List.map_nil, List.nil_append] at this
  have h2 := congrArg (List.map aggPRow) this
  rw [List.map_map, List.map_map] at h2
  refine Eq.trans ?_ (h2.trans ?_)
  · rfl
  · conv_rhs => rw [← List.map_id (rows.filter _)]
    apply List.map_congr_left
    intro r _
    simp [aggPRow]

theorem cleanUp_ok {m : K} {rows marked : List (PRow K)} {out : List (CleanRow K)}
    (h : cleanUp m rows = .ok (marked, out)) :
    marked = markThin m rows ∧
      out.map (·.toPRow) =
        (mergePRows (markThin m rows)).filter (fun r => decide (r.label ≠ "Other")) := by
  unfold cleanUp at h
  by_cases he : rows = []
  · rw [if_pos he] at h
    simp only [Except.ok.injEq, Prod.mk.injEq] at h
    obtain ⟨rfl, rfl⟩ := h
    subst he
    exact ⟨rfl, rfl⟩
  · rw [if_neg he] at h
    simp only [] at h
    cases hm : mergePRows (markThin m rows) with
    | nil => rw [hm] at h; simp at h
    | cons r0 tl =>
      rw [hm] at h
      simp only [] at h
      split at h
      · simp at h
      · simp only [Except.ok.injEq, Prod.mk.injEq] at h
        refine ⟨h.1.symm, ?_⟩
        rw [← h.2, List.map_map]
        have hch := mergePRows_chain (markThin m rows)
        rw [hm] at hch
        rw [← mergeNullable_relabel _ hch]
        conv_rhs => rw [← List.map_id (mergeNullable _)]
        rfl

/-- **C69** (partial) what is kept: the ice and the ejecta of the layers that are thick enough and
not already called `Other`.  Missing from the full claim: the rest, which is dropped instead of
being merged into the neighbour. -/
theorem C69_kept_partial (m : K) (rows marked : List (PRow K)) (out : List (CleanRow K))
    (h : cleanUp m rows = .ok (marked, out)) :
    (out.map (·.ice)).sum = ((thickLayers m rows).map (·.ice)).sum ∧
    (out.map (·.ejecta)).sum = ((thickLayers m rows).map (·.ejecta)).sum := by
  obtain ⟨_, ho⟩ := cleanUp_ok h
  rw [← markThin_filter]
  constructor
  · rw [← mergePRows_sum (·.ice) (fun g => rfl) (fun l => decide (l ≠ "Other")), ← ho,
      List.map_map]; rfl
  · rw [← mergePRows_sum (·.ejecta) (fun g => rfl) (fun l => decide (l ≠ "Other")), ← ho,
      List.map_map]; rfl

theorem thickLayers_all {m : K} {rows : List (PRow K)}
    (h : ∀ p ∈ rows.zip ((rows.map (·.depth)).tail ++ [0]), m ≤ p.1.depth - p.2)
    (hl : ∀ r ∈ rows, r.label ≠ "Other") : thickLayers m rows = rows := by
  unfold thickLayers
  rw [List.filter_eq_self.2]
  · rw [← List.unzip_fst, List.unzip_zip_left]
    simp only [List.length_append, List.length_tail, List.length_map, List.length_singleton]
    omega
  · intro p hp
    simp only [decide_eq_true_eq]
    exact ⟨hl p.1 (List.of_mem_zip hp).1, h p hp⟩

theorem markThin_self {m : K} : ∀ {rows : List (PRow K)},
    (∀ p ∈ rows.zip ((rows.map (·.depth)).tail ++ [0]), m ≤ p.1.depth - p.2) →
    markThin m rows = rows
  | [], _ => rfl
  | [r], h => by
    have := h (r, 0) (by simp)
    simp only [markThin]
    rw [if_neg (not_lt.2 this)]
  | r :: s :: tl, h => by
    have h1 := h (r, s.depth) (by simp)
    have h2 := markThin_self (rows := s :: tl) (fun p hp => h p (by
      simp only [List.map_cons, List.tail_cons, List.cons_append, List.zip_cons_cons]
      exact List.mem_cons_of_mem _ hp))
    rw [markThin, h2]
    rw [if_neg (not_lt.2 h1)]

theorem mergePRows_ne_nil {rows : List (PRow K)} (h : rows ≠ []) : mergePRows rows ≠ [] := by
  unfold mergePRows
  rw [groupRuns_eq]
  cases rows with
  | nil => exact absurd rfl h
  | cons r rest =>
    obtain ⟨bs, rs, hh⟩ := runs_head (fun r : PRow K => r.label) r rest
    rw [hh]; simp

theorem mergePRows_labels (rows : List (PRow K)) (l : String) :
    (∃ r ∈ mergePRows rows, r.label = l) ↔ ∃ r ∈ rows, r.label = l := by
  have hb := runs_blocks (fun r : PRow K => r.label) rows
  unfold mergePRows
  rw [groupRuns_eq]
  constructor
  · rintro ⟨r, hr, rfl⟩
    obtain ⟨g, hg, rfl⟩ := List.mem_map.1 hr
    refine ⟨g.1, ?_, (aggPRow_label hg).1.symm⟩
    rw [← hb.flatten, List.mem_flatten]
    exact ⟨toBlock g, List.mem_map.2 ⟨g, hg, rfl⟩, List.mem_cons_self⟩
  · rintro ⟨r, hr, rfl⟩
    rw [← hb.flatten, List.mem_flatten] at hr
    obtain ⟨b, hbm, hrb⟩ := hr
    obtain ⟨g, hg, rfl⟩ := List.mem_map.1 hbm
    exact ⟨aggPRow g, List.mem_map.2 ⟨g, hg, rfl⟩, by
      rw [(aggPRow_label hg).1, (aggPRow_label hg).2 r hrb]⟩

/-- **C69** (partial) nothing is lost when no layer is thin and none is called `Other`. -/
theorem C69_no_thin_partial (m : K) (rows : List (PRow K)) (hne : rows ≠ [])
    (h : ∀ p ∈ rows.zip ((rows.map (·.depth)).tail ++ [0]), m ≤ p.1.depth - p.2)
    (hl : ∀ r ∈ rows, r.label ≠ "Other") :
    ∃ out, cleanUp m rows = .ok (rows, out) ∧
      (out.map (·.ice)).sum = (rows.map (·.ice)).sum ∧
      (out.map (·.ejecta)).sum = (rows.map (·.ejecta)).sum ∧
      (out.map (·.label)).IsChain (· ≠ ·) ∧
      (∀ o ∈ out, o.icepct = if o.ice + o.ejecta = 0 then none
        else some (100 * o.ice / (o.ice + o.ejecta))) := by
  have hmk : markThin m rows = rows := markThin_self h
  have hlm : ∀ r ∈ mergePRows rows, r.label ≠ "Other" := by
    intro r hr
    unfold mergePRows at hr
    rw [groupRuns_eq] at hr
    obtain ⟨g, hg, rfl⟩ := List.mem_map.1 hr
    rw [(aggPRow_label hg).1]
    apply hl
    rw [← (runs_blocks (fun r : PRow K => r.label) rows).flatten, List.mem_flatten]
    exact ⟨toBlock g, List.mem_map.2 ⟨g, hg, rfl⟩, List.mem_cons_self⟩
  obtain ⟨out, ho⟩ : ∃ out, cleanUp m rows = .ok (rows, out) ∧
      ∀ o ∈ out, o.icepct = if o.ice + o.ejecta = 0 then none
        else some (100 * o.ice / (o.ice + o.ejecta)) := by
    unfold cleanUp
    rw [if_neg hne]
    simp only [hmk]
    cases hm : mergePRows rows with
    | nil => exact absurd hm (mergePRows_ne_nil hne)
    | cons r0 tl =>
      have h0 : r0.label ≠ "Other" := hlm r0 (by rw [hm]; simp)
      simp only []
      rw [if_neg (fun hc => h0 hc.1)]
      refine ⟨_, rfl, ?_⟩
      intro o ho
      obtain ⟨r, _, rfl⟩ := List.mem_map.1 ho
      rfl
  obtain ⟨ho, hpct⟩ := ho
  have hk := C69_kept_partial m rows rows out ho
  rw [thickLayers_all h hl] at hk
  refine ⟨out, ho, hk.1, hk.2, ?_, hpct⟩
  obtain ⟨_, hout⟩ := cleanUp_ok ho
  rw [hmk, List.filter_eq_self.2 (fun r hr => by simpa using hlm r hr)] at hout
  have h1 : out.map (·.label) = (out.map (·.toPRow)).map (·.label) := by rw [List.map_map]; rfl
  rw [h1, hout, List.isChain_map]
  exact mergePRows_chain rows

/-- **C69** the failure: every layer is thin or already called `Other`. -/
theorem C69_fails_iff (m : K) (rows : List (PRow K)) :
    ((∃ e, cleanUp m rows = .error e) ↔ rows ≠ [] ∧ thickLayers m rows = []) ∧
    (∀ e, cleanUp m rows = .error e → e = .keyError) := by
  rw [← markThin_filter]
  unfold cleanUp
  by_cases he : rows = []
  · rw [if_pos he]; simp [he]
  · rw [if_neg he]
    simp only []
    have hch := mergePRows_chain (markThin m rows)
    have hmem : ∀ l, (∃ r ∈ mergePRows (markThin m rows), r.label = l) ↔
        ∃ r ∈ markThin m rows, r.label = l := mergePRows_labels _
    cases hm : mergePRows (markThin m rows) with
    | nil =>
      have : markThin m rows ≠ [] := by
        cases rows with
        | nil => exact absurd rfl he
        | cons r rest => simp [markThin]
      exact absurd hm (mergePRows_ne_nil this)
    | cons r0 tl =>
      rw [hm] at hmem hch
      simp only []
      have key : (r0.label = "Other" ∧ tl = []) ↔
          (markThin m rows).filter (fun r => decide (r.label ≠ "Other")) = [] := by
        rw [List.filter_eq_nil_iff]
        constructor
        · rintro ⟨h0, rfl⟩ r hr
          obtain ⟨r', hr', hl⟩ := (hmem r.label).2 ⟨r, hr, rfl⟩
          simp only [List.mem_singleton] at hr'
          subst hr'
          simp [← hl, h0]
        · intro hall
          have hO : ∀ r ∈ r0 :: tl, r.label = "Other" := by
            intro r hr
            obtain ⟨r', hr', hl⟩ := (hmem r.label).1 ⟨r, hr, rfl⟩
            have := hall r' hr'
            rw [← hl]; simpa using this
          refine ⟨hO r0 (by simp), ?_⟩
          cases tl with
          | nil => rfl
          | cons r1 tl =>
            have := (List.isChain_cons_cons.1 hch).1
            rw [hO r0 (by simp), hO r1 (by simp)] at this
            exact absurd rfl this
      by_cases hc : r0.label = "Other" ∧ tl = []
      · rw [if_pos hc]
        refine ⟨⟨fun _ => ⟨he, key.1 hc⟩, fun _ => ⟨_, rfl⟩⟩, fun e h => ?_⟩
        cases h; rfl
      · rw [if_neg hc]
        refine ⟨⟨fun ⟨e, h⟩ => (by simp at h), fun h => absurd (key.2 h.2) hc⟩, fun e h => ?_⟩
        simp at h

/-- The column of the witness: two metres of ice, a thin but icy layer, ejecta. -/
def thinRows : List (PRow ℚ) :=
  [⟨2, 0, "Ice", 3, 6⟩, ⟨1 / 2, 1 / 2, "A", 2, 4⟩, ⟨0, 3, "B", 1, 3⟩]

/-- **C69** refuted: with a minimum of two metres the middle layer disappears, and its ice and
ejecta with it. -/
theorem C69_refuted : ∃ (rows marked : List (PRow ℚ)) (out : List (CleanRow ℚ)),
    cleanUp 2 rows = .ok (marked, out) ∧
    (out.map (·.ice)).sum < (rows.map (·.ice)).sum ∧
    (out.map (·.ejecta)).sum < (rows.map (·.ejecta)).sum := by
  refine ⟨thinRows, markThin 2 thinRows,
    [⟨⟨2, 0, "Ice", 3, 6⟩, some 100⟩, ⟨⟨0, 3, "B", 1, 3⟩, some 0⟩], ?_, ?_, ?_⟩ <;> decide +kernel

/-- **C69** the table of the caller is changed: the thin layers are called `Other` there too. -/
theorem C69_changes_argument : ∃ (rows marked : List (PRow ℚ)) (out : List (CleanRow ℚ)),
    cleanUp 2 rows = .ok (marked, out) ∧ marked ≠ rows ∧
    marked.map (·.label) = ["Ice", "Other", "B"] :=
  ⟨thinRows, markThin 2 thinRows,
    [⟨⟨2, 0, "Ice", 3, 6⟩, some 100⟩, ⟨⟨0, 3, "B", 1, 3⟩, some 0⟩], by decide +kernel,
    by decide +kernel, by decide +kernel⟩

/-- Non-vacuity of `C69_no_thin_partial` and `C69_fails_iff`. -/
example : (∀ p ∈ thinRows.zip ((thinRows.map (·.depth)).tail ++ [0]), (1 : ℚ) ≤ p.1.depth - p.2) ∧
    (∀ r ∈ thinRows, r.label ≠ "Other") ∧ thickLayers 7 thinRows = [] := by decide +kernel

end MoonPIES
