import Verif.Model.Agg
import Mathlib.Data.List.Nodup

/-!
# Lemmas on dictionaries, flattening and renaming of the aggregated tables
-/

namespace MoonPIES

set_option linter.unusedSectionVars false

variable {K : Type} [Field K] [LinearOrder K]

theorem kget_kset {κ β : Type} [DecidableEq κ] (d : List (κ × β)) (k k' : κ) (v : β) :
    kget (kset d k v) k' = if k = k' then some v else kget d k' := by
  induction d with
  | nil => simp [kset, kget]
  | cons x rest ih =>
    obtain ⟨a, b⟩ := x
    unfold kset
    by_cases h : a = k
    · subst h
      by_cases h' : a = k' <;> simp [kget, h']
    · rw [if_neg h]
      unfold kget
      by_cases h' : a = k'
      · subst h'
        have : ¬ k = a := fun e => h e.symm
        simp [this]
      · rw [if_neg h', ih, if_neg h']

theorem kget_kupdate_not {κ β : Type} [DecidableEq κ] (l : List (κ × β)) :
    ∀ (d : List (κ × β)) (k : κ), k ∉ l.map (·.1) → kget (kupdate d l) k = kget d k := by
  induction l with
  | nil => intro d k _; rfl
  | cons x rest ih =>
    intro d k h
    simp only [List.map_cons, List.mem_cons, not_or] at h
    unfold kupdate
    rw [List.foldl_cons]
    have := ih (kset d x.1 x.2) k h.2
    unfold kupdate at this
    rw [this, kget_kset, if_neg (fun e => h.1 e.symm)]

theorem kget_kupdate_mem {κ β : Type} [DecidableEq κ] (l : List (κ × β)) :
    ∀ (d : List (κ × β)) (k : κ) (v : β), (l.map (·.1)).Nodup → (k, v) ∈ l →
      kget (kupdate d l) k = some v := by
  induction l with
  | nil => intro d k v _ h; simp at h
  | cons x rest ih =>
    intro d k v hn h
    rw [List.map_cons, List.nodup_cons] at hn
    have hu : kupdate d (x :: rest) = kupdate (kset d x.1 x.2) rest := rfl
    rw [hu]
    rcases List.mem_cons.1 h with rfl | h
    · rw [kget_kupdate_not _ _ _ hn.1, kget_kset, if_pos rfl]
    · exact ih _ k v hn.2 h

theorem mem_of_kget {κ β : Type} [DecidableEq κ] {d : List (κ × β)} {k : κ} {v : β}
    (h : kget d k = some v) : (k, v) ∈ d := by
  induction d with
  | nil => simp [kget] at h
  | cons x rest ih =>
    obtain ⟨a, b⟩ := x
    unfold kget at h
    split at h
    · rename_i e
      cases h
      rw [e]
      exact List.mem_cons_self
    · exact List.mem_cons_of_mem _ (ih h)

theorem kget_of_mem {κ β : Type} [DecidableEq κ] {d : List (κ × β)} {k : κ} {v : β}
    (hn : (d.map (·.1)).Nodup) (h : (k, v) ∈ d) : kget d k = some v := by
  induction d with
  | nil => simp at h
  | cons x rest ih =>
    obtain ⟨a, b⟩ := x
    rw [List.map_cons, List.nodup_cons] at hn
    unfold kget
    rcases List.mem_cons.1 h with e | h
    · cases e
      rw [if_pos rfl]
    · rw [if_neg, ih hn.2 h]
      rintro rfl
      exact hn.1 (List.mem_map.2 ⟨_, h, rfl⟩)

theorem kset_keys {κ β : Type} [DecidableEq κ] (d : List (κ × β)) (k : κ) (v : β) :
    (kset d k v).map (·.1) = if k ∈ d.map (·.1) then d.map (·.1) else d.map (·.1) ++ [k] := by
  induction d with
  | nil => simp [kset]
  | cons x rest ih =>
    obtain ⟨a, b⟩ := x
    unfold kset
    by_cases h : a = k
    · subst h
      simp
    · have h' : ¬ k = a := fun e => h e.symm
      rw [if_neg h, List.map_cons, ih]
      by_cases hk : k ∈ rest.map (·.1)
      · rw [if_pos hk, if_pos (by rw [List.map_cons]; exact List.mem_cons_of_mem _ hk), List.map_cons]
      · rw [if_neg hk, if_neg, List.map_cons, List.cons_append]
        rw [List.map_cons, List.mem_cons, not_or]
        exact ⟨h', hk⟩

theorem kset_nodup {κ β : Type} [DecidableEq κ] {d : List (κ × β)} (h : (d.map (·.1)).Nodup)
    (k : κ) (v : β) : ((kset d k v).map (·.1)).Nodup := by
  rw [kset_keys]
  split
  · exact h
  · rename_i hk
    rw [List.nodup_append]
    refine ⟨h, by simp, ?_⟩
    intro a ha b hb e
    rw [List.mem_singleton] at hb
    rw [e, hb] at ha
    exact hk ha

theorem kupdate_nodup {κ β : Type} [DecidableEq κ] (l : List (κ × β)) :
    ∀ d : List (κ × β), (d.map (·.1)).Nodup → ((kupdate d l).map (·.1)).Nodup := by
  induction l with
  | nil => intro d h; exact h
  | cons x rest ih => intro d h; exact ih _ (kset_nodup h x.1 x.2)

theorem kget_aggregateAll (compute : String → Except PyErr (AggData K)) (traps : List String) :
    ∀ (p : List (String × AggData K)) (t : String), kget (aggregateAll compute traps p) t =
      if t ∈ traps then (match compute t with
        | .ok d => some d
        | .error _ => kget p t) else kget p t := by
  induction traps with
  | nil => intro p t; simp [aggregateAll]
  | cons u rest ih =>
    intro p t
    have hu : aggregateAll compute (u :: rest) p = aggregateAll compute rest
      (match compute u with
        | .ok d => kset p u d
        | .error _ => p) := rfl
    rw [hu, ih]
    by_cases htu : u = t
    · subst htu
      rw [if_pos (List.mem_cons_self (a := u) (l := rest))]
      cases hc : compute u with
      | ok d => simp [kget_kset]
      | error e => simp
    · have hiff : t ∈ u :: rest ↔ t ∈ rest := by
        rw [List.mem_cons]
        exact ⟨fun h => h.resolve_left (fun e => htu e.symm), Or.inr⟩
      rw [if_congr hiff rfl rfl]
      cases hc : compute u with
      | ok d => simp only [kget_kset, if_neg htu]
      | error e => rfl

theorem aggregateAll_nodup (compute : String → Except PyErr (AggData K)) (traps : List String) :
    ∀ p : List (String × AggData K), (p.map (·.1)).Nodup →
      ((aggregateAll compute traps p).map (·.1)).Nodup := by
  induction traps with
  | nil => intro p h; exact h
  | cons u rest ih =>
    intro p h
    apply ih
    simp only []
    cases compute u with
    | ok d => exact kset_nodup h u d
    | error e => exact h

/-- The column names of different pickles, directories and statistics differ. -/
theorem pickle_keys_nodup {β : Type} (sel : β → List (String × List (String × List K)))
    (pickles : List (String × β)) (hn : (pickles.map (·.1)).Nodup)
    (h : ∀ p ∈ pickles, ((sel p.2).map (·.1)).Nodup ∧ ∀ r ∈ sel p.2, (r.2.map (·.1)).Nodup) :
    ((pickles.flatMap (fun p => pickleCols p.1 (sel p.2))).map (·.1)).Nodup := by
  rw [List.map_flatMap, List.nodup_flatMap]
  constructor
  · intro p hp
    obtain ⟨h1, h2⟩ := h p hp
    unfold pickleCols
    rw [List.map_flatMap, List.nodup_flatMap]
    constructor
    · intro r hr
      rw [List.map_map]
      have := List.Nodup.map (f := fun s => (p.1, r.1, s))
        (fun a b e => by simpa using e) (h2 r hr)
      rwa [List.map_map] at this
    · rw [List.Nodup, List.pairwise_map] at h1
      refine h1.imp ?_
      intro a b hab x hxa hxb
      simp only [List.map_map, List.mem_map, Function.comp_apply] at hxa hxb
      obtain ⟨_, _, rfl⟩ := hxa
      obtain ⟨_, _, e⟩ := hxb
      simp only [Prod.mk.injEq] at e
      exact hab e.2.1.symm
  · rw [List.Nodup, List.pairwise_map] at hn
    refine hn.imp ?_
    intro a b hab x hxa hxb
    simp only [pickleCols, List.mem_map, List.mem_flatMap] at hxa hxb
    obtain ⟨_, ⟨_, _, _, _, rfl⟩, rfl⟩ := hxa
    obtain ⟨_, ⟨_, _, _, _, rfl⟩, e⟩ := hxb
    simp only [Prod.mk.injEq] at e
    exact hab e.1.symm

theorem kget_pickles {β : Type} (sel : β → List (String × List (String × List K)))
    (pickles : List (String × β)) (hn : (pickles.map (·.1)).Nodup)
    (h : ∀ p ∈ pickles, ((sel p.2).map (·.1)).Nodup ∧ ∀ r ∈ sel p.2, (r.2.map (·.1)).Nodup)
    {t : String} {b : β} (hb : (t, b) ∈ pickles) {run : String} {st : List (String × List K)}
    (hr : (run, st) ∈ sel b) {s : String} {col : List K} (hs : (s, col) ∈ st) :
    kget (kupdate [] (pickles.flatMap (fun p => pickleCols p.1 (sel p.2)))) (t, run, s) =
      some col := by
  apply kget_kupdate_mem _ _ _ _ (pickle_keys_nodup sel pickles hn h)
  rw [List.mem_flatMap]
  refine ⟨_, hb, ?_⟩
  unfold pickleCols
  rw [List.mem_flatMap]
  exact ⟨_, hr, List.mem_map.2 ⟨_, hs, rfl⟩⟩

theorem runStats_nodup (depths : List (String × K)) (l : List (AggRun K)) :
    ((runStats depths l).map (·.1)).Nodup :=
  kupdate_nodup _ _ (kupdate_nodup _ _ (by simp))

theorem runStats_total (depths : List (String × K)) (l : List (AggRun K)) :
    ("total ice", l.map (·.total)) ∈ runStats depths l :=
  mem_of_kget (kget_kupdate_mem _ _ _ _ (by simp) (by simp))

theorem runStats_maxdepth (depths : List (String × K)) (l : List (AggRun K)) :
    ("maxdepth", l.map (·.maxdepth)) ∈ runStats depths l :=
  mem_of_kget (kget_kupdate_mem _ _ _ _ (by simp) (by simp))

theorem depthKey_inj {a b : String} (h : "total ice " ++ a ++ "m" = "total ice " ++ b ++ "m") :
    a = b := by
  have h' := congrArg String.toList h
  simp only [String.toList_append] at h'
  exact String.toList_injective (List.append_cancel_left (List.append_cancel_right h'))

theorem depthKey_ne (a : String) : "total ice " ++ a ++ "m" ≠ "total ice" ∧
    "total ice " ++ a ++ "m" ≠ "maxdepth" := by
  constructor
  · intro h
    have h' := congrArg (fun s => s.toList.length) h
    simp [String.toList_append] at h'
  · intro h
    have h' := congrArg (fun s => s.toList.head?) h
    simp [String.toList_append] at h'

theorem runStats_depth (depths : List (String × K)) (hd : (depths.map (·.1)).Nodup)
    (l : List (AggRun K)) (i : Nat) (d : String × K) (hi : depths[i]? = some d) :
    ("total ice " ++ d.1 ++ "m", l.map (fun r => (r.upTo[i]?).getD 0)) ∈ runStats depths l := by
  apply mem_of_kget
  unfold runStats
  rw [kget_kupdate_not]
  · apply kget_kupdate_mem
    · have := List.Nodup.map (f := fun s : String => "total ice " ++ s ++ "m")
        (fun a b e => depthKey_inj e) hd
      rw [List.map_map] at this
      rw [List.map_map]
      have he : (depths.zipIdx.map ((fun x : String × List K => x.1) ∘ fun d : (String × K) × Nat =>
          ("total ice " ++ d.1.1 ++ "m", l.map (fun r => (r.upTo[d.2]?).getD 0)))) =
          depths.map ((fun s : String => "total ice " ++ s ++ "m") ∘ fun x => x.1) := by
        conv_rhs => rw [← List.zipIdx_map_fst 0 depths, List.map_map]
        rfl
      rw [he]
      exact this
    · rw [List.mem_map]
      exact ⟨(d, i), List.mem_zipIdx_iff_getElem?.2 hi, rfl⟩
  · simp [(depthKey_ne d.1).1, (depthKey_ne d.1).2]

theorem tableLen_ge {t : List (AggKey × List K)} {k : AggKey} {col : List K}
    (h : kget t k = some col) : col.length ≤ tableLen t := by
  have hmono : ∀ (l : List (AggKey × List K)) (n : Nat),
      n ≤ l.foldl (fun n c => max n c.2.length) n := by
    intro l
    induction l with
    | nil => intro n; exact le_refl _
    | cons c l ih => intro n; exact (le_max_left _ _).trans (ih _)
  have hmem : ∀ (l : List (AggKey × List K)) (n : Nat), ∀ c ∈ l,
      c.2.length ≤ l.foldl (fun n c => max n c.2.length) n := by
    intro l
    induction l with
    | nil => intro n c hc; simp at hc
    | cons c l ih =>
      intro n c' hc'
      rcases List.mem_cons.1 hc' with rfl | hc'
      · exact (le_max_right _ _).trans (hmono l _)
      · exact ih _ c' hc'
  have hin : ∃ c ∈ t, c.2 = col := by
    clear hmono hmem
    induction t with
    | nil => simp [kget] at h
    | cons x rest ih =>
      obtain ⟨a, b⟩ := x
      unfold kget at h
      split at h
      · exact ⟨_, List.mem_cons_self, by simpa using h⟩
      · obtain ⟨c, hc, e⟩ := ih h
        exact ⟨c, List.mem_cons_of_mem _ hc, e⟩
  obtain ⟨c, hc, rfl⟩ := hin
  exact hmem t 0 c hc

/-- The rows of a flattened table that belong to one cold trap and one run directory, when the
columns of the statistics have the same length. -/
theorem flatten_pair (stats : List String) (hs : stats ≠ []) (pairs : List (String × String))
    (hp : pairs.Nodup) (t : List (AggKey × List K)) (ct run : String) (hmem : (ct, run) ∈ pairs)
    (n : Nat) (hcol : ∀ s ∈ stats, ∃ col, kget t (ct, run, s) = some col ∧ col.length = n) :
    (flattenAgg stats pairs t).filter (fun r => decide (r.coldtrap = ct ∧ r.runs = run)) =
      (List.range n).map (fun j => ⟨ct, run, stats.map (fun s => cell t (ct, run, s) j)⟩) := by
  obtain ⟨s0, hs0⟩ := List.exists_mem_of_ne_nil _ hs
  have hlen : n ≤ tableLen t := by
    obtain ⟨col, hc, rfl⟩ := hcol s0 hs0
    exact tableLen_ge hc
  have hrow : ∀ j, (pairs.filterMap (fun p =>
      let vals := stats.map (fun s => cell t (p.1, p.2, s) j)
      if vals.all (·.isNone) then none else some (⟨p.1, p.2, vals⟩ : FlatRow K))).filter
        (fun r => decide (r.coldtrap = ct ∧ r.runs = run)) =
      if j < n then [⟨ct, run, stats.map (fun s => cell t (ct, run, s) j)⟩] else [] := by
    intro j
    have hone : ∀ l : List (String × String), l.Nodup → (l.filterMap (fun p =>
        let vals := stats.map (fun s => cell t (p.1, p.2, s) j)
        if vals.all (·.isNone) then none else some (⟨p.1, p.2, vals⟩ : FlatRow K))).filter
          (fun r => decide (r.coldtrap = ct ∧ r.runs = run)) =
        if (ct, run) ∈ l ∧ j < n then
          [⟨ct, run, stats.map (fun s => cell t (ct, run, s) j)⟩] else [] := by
      intro l
      induction l with
      | nil => intro _; simp
      | cons p rest ih =>
        intro hn
        rw [List.nodup_cons] at hn
        have ih' := ih hn.2
        rw [List.filterMap_cons]
        by_cases hpe : p = (ct, run)
        · subst hpe
          have hrest : ¬ ((ct, run) ∈ rest ∧ j < n) := fun h => hn.1 h.1
          rw [if_neg hrest] at ih'
          by_cases hj : j < n
          · have hall : (stats.map (fun s => cell t (ct, run, s) j)).all (·.isNone) = false := by
              rw [List.all_eq_false]
              refine ⟨_, List.mem_map.2 ⟨s0, hs0, rfl⟩, ?_⟩
              obtain ⟨col, hc, hl⟩ := hcol s0 hs0
              simp [cell, hc, hl, hj]
            simp only [hall]
            rw [if_neg (by simp), if_pos ⟨List.mem_cons_self, hj⟩]
            simp only []
            rw [List.filter_cons_of_pos (by simp), ih']
          · have hall : (stats.map (fun s => cell t (ct, run, s) j)).all (·.isNone) = true := by
              rw [List.all_eq_true]
              intro x hx
              obtain ⟨s, hs', rfl⟩ := List.mem_map.1 hx
              obtain ⟨col, hc, hl⟩ := hcol s hs'
              have : col[j]? = none := List.getElem?_eq_none (by omega)
              simp [cell, hc, this]
            simp only [hall]
            rw [if_pos trivial, if_neg (fun h => hj h.2)]
            exact ih'
        · have hiff : ((ct, run) ∈ p :: rest ∧ j < n) ↔ ((ct, run) ∈ rest ∧ j < n) := by
            rw [List.mem_cons]
            constructor
            · rintro ⟨h | h, h'⟩
              · exact absurd h.symm hpe
              · exact ⟨h, h'⟩
            · rintro ⟨h, h'⟩; exact ⟨Or.inr h, h'⟩
          rw [if_congr hiff rfl rfl, ← ih']
          simp only []
          split
          · rename_i heq
            rfl
          · rename_i b heq
            split at heq
            · cases heq
            · cases heq
              rw [List.filter_cons_of_neg]
              simp only [decide_eq_true_eq]
              rintro ⟨h1, h2⟩
              exact hpe (Prod.ext h1 h2)
    rw [hone pairs hp]
    simp [hmem]
  unfold flattenAgg
  rw [List.filter_flatMap]
  simp only [hrow]
  obtain ⟨m, hm⟩ : ∃ m, tableLen t = n + m := ⟨tableLen t - n, by omega⟩
  rw [hm, List.range_add, List.flatMap_append]
  have h2 : ((List.range m).map (fun x => n + x)).flatMap (fun j =>
      if j < n then [(⟨ct, run, stats.map (fun s => cell t (ct, run, s) j)⟩ : FlatRow K)] else [])
      = [] := by
    rw [List.flatMap_eq_nil_iff]
    intro j hj
    obtain ⟨x, _, rfl⟩ := List.mem_map.1 hj
    rw [if_neg (by omega)]
  rw [h2, List.append_nil, List.map_eq_flatMap]
  apply List.flatMap_congr
  intro j hj
  rw [if_pos (List.mem_range.1 hj)]

/-! ## Renaming -/

/-- What becomes of one name. -/
def renameOne (l : List (String × String)) (x : String) : String :=
  l.foldl (fun x nn => if x = nn.1 then nn.2 else x) x

theorem renameRuns_eq {R : Type} (names news : List String) (df : List (String × R)) :
    renameRuns names news df =
      (df.filter (fun r => r.1 ∈ names)).map (fun r => (renameOne (names.zip news) r.1, r.2)) := by
  unfold renameRuns
  generalize names.zip news = l
  generalize df.filter (fun r => r.1 ∈ names) = d
  induction l generalizing d with
  | nil => simp [renameOne]
  | cons nn rest ih =>
    rw [List.foldl_cons, ih, List.map_map]
    apply List.map_congr_left
    intro r _
    simp only [Function.comp_apply, renameOne, List.foldl_cons]
    by_cases h : r.1 = nn.1 <;> simp [h]

theorem renameOne_append (a b : List (String × String)) (x : String) :
    renameOne (a ++ b) x = renameOne b (renameOne a x) := by
  simp [renameOne, List.foldl_append]

theorem renameOne_not {l : List (String × String)} {x : String} (h : ∀ p ∈ l, p.1 ≠ x) :
    renameOne l x = x := by
  induction l with
  | nil => rfl
  | cons p rest ih =>
    have h1 : ¬ x = p.1 := fun e => h p List.mem_cons_self e.symm
    show renameOne rest (if x = p.1 then p.2 else x) = x
    rw [if_neg h1]
    exact ih (fun q hq => h q (List.mem_cons_of_mem _ hq))

end MoonPIES
