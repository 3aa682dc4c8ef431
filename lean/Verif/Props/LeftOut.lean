import Verif.Props.MainPhysical
import Verif.Props.Strat
import Verif.Props.Gentler

/-!
# C168: what the stratigraphy tables leave out
-/

namespace MoonPIES

open Spec

section
variable {K : Type} [Field K] [LinearOrder K] [IsStrictOrderedRing K]

/-- Neither the ice nor the ejecta of the timestep exceed the least thickness of a layer. -/
def Thin (thickMin : K) (s : Step K) : Prop := s.ice ≤ thickMin ∧ s.ejecta ≤ thickMin

instance (thickMin : K) (s : Step K) : Decidable (Thin thickMin s) := by unfold Thin; infer_instance

/-- The timesteps that a table may show: with `stratAfterAge`, those younger than the cold trap. -/
def shown (tol age : K) (saa : Bool) (steps : List (Step K)) : List (Step K) :=
  steps.filter (fun s => decide (saa = true → s.time < age + |age| * tol))

/-- Thickness of a sequence of timesteps. -/
def total (l : List (Step K)) : K := (l.map fun s => s.ice + s.ejecta).sum

/-- The row of a timestep, if it is labelled. -/
def tableRow (thickMin : K) (s : Step K) : Option (Row K) :=
  (rowLabel thickMin s).map fun l => ⟨s.time, s.ice, s.ejecta, l⟩

omit [Field K] [IsStrictOrderedRing K] in
theorem dropUnlabelled_tableRow (thickMin : K) (l : List (Step K)) :
    dropUnlabelled (labelRows thickMin l) = l.filterMap (tableRow thickMin) := by
  unfold dropUnlabelled labelRows
  rw [List.filterMap_map]
  apply List.filterMap_congr
  intro s _
  simp only [Function.comp, tableRow]
  cases rowLabel thickMin s <;> rfl

omit [Field K] [IsStrictOrderedRing K] in
theorem tableRow_none (thickMin : K) (s : Step K) : tableRow thickMin s = none ↔ Thin thickMin s := by
  unfold tableRow Thin
  rw [Option.map_eq_none_iff]
  unfold rowLabel
  by_cases h1 : s.ice > thickMin
  · by_cases h2 : s.ejecta > thickMin
    · by_cases h3 : s.src = "" <;> simp [h2, h3, not_le.2 h1]
    · simp [h1, h2, not_le.2 h1]
  · by_cases h2 : s.ejecta > thickMin
    · by_cases h3 : s.src = "" <;> simp [h2, h3, not_le.2 h2]
    · simp [h1, h2, not_lt.1 h1, not_lt.1 h2]

/-- What is left out of a sequence of timesteps is at most twice the least thickness of a layer for each thin one. -/
theorem total_rows (thickMin : K) : ∀ (l : List (Step K)), (∀ s ∈ l, 0 ≤ s.ice ∧ 0 ≤ s.ejecta) →
    ((l.filterMap (tableRow thickMin)).map fun r => r.ice + r.ejecta).sum ≤ total l ∧
    total l ≤ ((l.filterMap (tableRow thickMin)).map fun r => r.ice + r.ejecta).sum +
      2 * thickMin * (l.countP fun s => decide (Thin thickMin s)) ∧
    ((l.filterMap (tableRow thickMin)).map (·.ice)).sum ≤ (l.map (·.ice)).sum ∧
    (l.map (·.ice)).sum ≤ ((l.filterMap (tableRow thickMin)).map (·.ice)).sum +
      thickMin * (l.countP fun s => decide (Thin thickMin s)) ∧
    ((l.filterMap (tableRow thickMin)).map (·.ejecta)).sum ≤ (l.map (·.ejecta)).sum ∧
    (l.map (·.ejecta)).sum ≤ ((l.filterMap (tableRow thickMin)).map (·.ejecta)).sum +
      thickMin * (l.countP fun s => decide (Thin thickMin s))
  | [], _ => by simp [total]
  | s :: l, h => by
    obtain ⟨i1, i2, i3, i4, i5, i6⟩ := total_rows thickMin l (fun t ht => h t (List.mem_cons_of_mem _ ht))
    obtain ⟨p1, p2⟩ := h s (by simp)
    unfold total at i1 i2 ⊢
    by_cases ht : Thin thickMin s
    · rw [List.filterMap_cons_none ((tableRow_none thickMin s).2 ht), List.countP_cons_of_pos (by simpa using ht)]
      obtain ⟨q1, q2⟩ := ht
      simp only [List.map_cons, List.sum_cons]
      push_cast
      refine ⟨?_, ?_, ?_, ?_, ?_, ?_⟩ <;> linarith
    · cases hr : tableRow thickMin s with
      | none => exact absurd ((tableRow_none thickMin s).1 hr) ht
      | some r =>
        have e : r.ice = s.ice ∧ r.ejecta = s.ejecta := by
          unfold tableRow at hr
          obtain ⟨x, -, hx⟩ := Option.map_eq_some_iff.1 hr
          rw [← hx]
          exact ⟨rfl, rfl⟩
        rw [List.filterMap_cons_some hr, List.countP_cons_of_neg (by simpa using ht)]
        simp only [List.map_cons, List.sum_cons, e.1, e.2]
        refine ⟨?_, ?_, ?_, ?_, ?_, ?_⟩ <;> linarith

/-- **C168** The depth of a layer in the table is that of its base in the column, but for the thin timesteps above it,
which are left out and add at most twice the least thickness each.  The base of a layer is a timestep with its label,
except for the `Formation age` row on top of which everything shown lies. -/
theorem C168_depth [FloorRing K] (thickMin tol age : K) (saa : Bool) (steps : List (Step K))
    (hpos : ∀ s ∈ steps, 0 ≤ s.ice ∧ 0 ≤ s.ejecta) (out : List (StratRow K))
    (h : makeStratCol thickMin tol saa age steps = .ok out) (k : Nat) (r : StratRow K) (hr : out[k]? = some r) :
    ∃ older younger, shown tol age saa steps = older ++ younger ∧ r.depth ≤ total younger ∧
      total younger ≤ r.depth + 2 * thickMin * (younger.countP fun s => decide (Thin thickMin s)) ∧
      ((saa = true ∧ k = 0 ∧ older = []) ∨ ∃ s rest, younger = s :: rest ∧ ¬ Thin thickMin s ∧
        rowLabel thickMin s = some r.label) := by
  have hsh : ∀ s ∈ shown tol age saa steps, 0 ≤ s.ice ∧ 0 ≤ s.ejecta := fun s hs =>
    hpos s (List.mem_of_mem_filter hs)
  have hdep := (C22_depth_cumulative thickMin tol age saa steps out h).1 k r hr
  obtain ⟨pre, ho, hpre⟩ := makeStratCol_ok h
  rw [dropUnlabelled_tableRow] at ho
  change out = addDepthPct (mergeAdjacent (pre ++ (shown tol age saa steps).filterMap (tableRow thickMin))) at ho
  obtain ⟨rows, hrows⟩ : ∃ t, t = pre ++ (shown tol age saa steps).filterMap (tableRow thickMin) := ⟨_, rfl⟩
  rw [← hrows] at ho
  obtain ⟨bs, hb, hs⟩ := merge_isMerge rows
  -- the rows below the top of the layer
  have hmap : out.map StratRow.row = mergeAdjacent rows := by rw [ho]; exact addDepthPct_rows _
  have hrow : (mergeAdjacent rows)[k]? = some r.row := by rw [← hmap, List.getElem?_map, hr]; rfl
  have hkb : k < bs.length := by rw [hs.length_eq]; exact (List.getElem?_eq_some_iff.1 hrow).1
  obtain ⟨-, -, x, hx, hxl, -⟩ := (forall₂_iff_getElem?.1 hs).2 k _ _ (List.getElem?_eq_getElem hkb) hrow
  have hsum : r.depth = (((bs.drop k).flatten).map fun r => r.ice + r.ejecta).sum := by
    have e1 : (out.drop k).map (fun r => r.ice + r.ejecta) =
        ((mergeAdjacent rows).drop k).map (fun r => r.ice + r.ejecta) := by
      rw [← hmap, ← List.map_drop, List.map_map]
      rfl
    obtain ⟨t1, t2⟩ := forall₂_summary_totals (List.forall₂_drop k hs)
    rw [hdep, e1, List.sum_map_add, List.sum_map_add, t1, t2]
  have hcons : (bs.drop k).flatten = bs[k] ++ (bs.drop (k + 1)).flatten := by
    rw [List.drop_eq_getElem_cons hkb, List.flatten_cons]
  obtain ⟨r0, b', hb0⟩ := List.exists_cons_of_ne_nil (hb.nonempty _ (List.getElem_mem hkb))
  have hlab : r0.label = r.label := by
    have hm : bs[k] ∈ bs := List.getElem_mem hkb
    have := hb.const _ hm r0 (by rw [hb0]; simp) x (List.mem_of_getLast? hx)
    rw [this]
    exact hxl.symm
  rw [hb0, List.cons_append] at hcons
  have hsplit : (bs.take k).flatten ++ (bs.drop k).flatten = rows := by
    rw [← List.flatten_append, List.take_append_drop, hb.flatten]
  -- a layer that begins among the timesteps shown
  have key : ∀ A, (shown tol age saa steps).filterMap (tableRow thickMin) = A ++ (bs.drop k).flatten →
      ∃ older younger, shown tol age saa steps = older ++ younger ∧ r.depth ≤ total younger ∧
        total younger ≤ r.depth + 2 * thickMin * (younger.countP fun s => decide (Thin thickMin s)) ∧
        ∃ s rest, younger = s :: rest ∧ ¬ Thin thickMin s ∧ rowLabel thickMin s = some r.label := by
    intro A hA
    obtain ⟨l1, l2, e1, -, e2⟩ := List.filterMap_eq_append_iff.1 hA
    rw [hcons] at e2
    obtain ⟨l3, a, l4, e3, -, e4, e5⟩ := List.filterMap_eq_cons_iff.1 e2
    obtain ⟨t1, t2, -⟩ := total_rows thickMin (a :: l4) (fun s hs => hsh s (by
      rw [e1, e3]
      exact List.mem_append_right _ (List.mem_append_right _ hs)))
    rw [List.filterMap_cons_some e4, e5, ← hcons, ← hsum] at t1 t2
    refine ⟨l1 ++ l3, a :: l4, by rw [e1, e3, List.append_assoc], t1, t2, a, l4, rfl, ?_, ?_⟩
    · intro ht
      rw [(tableRow_none thickMin a).2 ht] at e4
      cases e4
    · unfold tableRow at e4
      obtain ⟨l, hl, hl'⟩ := Option.map_eq_some_iff.1 e4
      rw [hl, ← hlab, ← hl']
  rcases hpre with ⟨hsaa, rfl⟩ | ⟨hsaa, s0, rest, hf, rfl⟩
  · rw [List.nil_append] at hrows
    obtain ⟨o, y, h1, h2, h3, h4⟩ := key _ (hrows.symm.trans hsplit.symm)
    exact ⟨o, y, h1, h2, h3, .inr h4⟩
  · rw [List.singleton_append] at hrows
    rcases Nat.eq_zero_or_pos k with hk | hk
    · subst hk
      obtain ⟨t1, t2, -⟩ := total_rows thickMin (shown tol age saa steps) hsh
      have e : (((bs.drop 0).flatten).map fun r => r.ice + r.ejecta).sum =
          (((shown tol age saa steps).filterMap (tableRow thickMin)).map fun r => r.ice + r.ejecta).sum := by
        rw [List.drop_zero, hb.flatten, hrows, List.map_cons, List.sum_cons]
        simp
      rw [← e, ← hsum] at t1 t2
      exact ⟨[], _, rfl, t1, t2, .inl ⟨hsaa, rfl, rfl⟩⟩
    · have hne : (bs.take k).flatten ≠ [] := by
        intro h0
        have hm : bs[0]'(by omega) ∈ bs.take k := by
          rw [List.mem_take_iff_getElem]
          exact ⟨0, by omega, rfl⟩
        have := List.flatten_eq_nil_iff.1 h0 _ hm
        exact hb.nonempty _ (List.getElem_mem _) this
      obtain ⟨f, A, hfA⟩ := List.exists_cons_of_ne_nil hne
      rw [hfA, List.cons_append, hrows] at hsplit
      injection hsplit with _ hsplit
      obtain ⟨o, y, h1, h2, h3, h4⟩ := key A hsplit.symm
      exact ⟨o, y, h1, h2, h3, .inr h4⟩

/-- **C168** The ice and ejecta of a table are those of the timesteps shown, but for at most the least thickness of a
layer for each thin timestep. -/
theorem C168_totals [FloorRing K] (thickMin tol age : K) (saa : Bool) (steps : List (Step K))
    (hpos : ∀ s ∈ steps, 0 ≤ s.ice ∧ 0 ≤ s.ejecta) (out : List (StratRow K))
    (h : makeStratCol thickMin tol saa age steps = .ok out) :
    (out.map (·.ice)).sum ≤ ((shown tol age saa steps).map (·.ice)).sum ∧
    ((shown tol age saa steps).map (·.ice)).sum ≤ (out.map (·.ice)).sum +
      thickMin * ((shown tol age saa steps).countP fun s => decide (Thin thickMin s)) ∧
    (out.map (·.ejecta)).sum ≤ ((shown tol age saa steps).map (·.ejecta)).sum ∧
    ((shown tol age saa steps).map (·.ejecta)).sum ≤ (out.map (·.ejecta)).sum +
      thickMin * ((shown tol age saa steps).countP fun s => decide (Thin thickMin s)) := by
  obtain ⟨-, -, t1, t2, t3, t4⟩ := total_rows thickMin (shown tol age saa steps)
    (fun s hs => hpos s (List.mem_of_mem_filter hs))
  obtain ⟨pre, ho, hpre⟩ := makeStratCol_ok h
  rw [dropUnlabelled_tableRow] at ho
  change out = addDepthPct (mergeAdjacent (pre ++ (shown tol age saa steps).filterMap (tableRow thickMin))) at ho
  have hmap : out.map StratRow.row =
      mergeAdjacent (pre ++ (shown tol age saa steps).filterMap (tableRow thickMin)) := by
    rw [ho]; exact addDepthPct_rows _
  obtain ⟨c1, c2⟩ := C20_totals (pre ++ (shown tol age saa steps).filterMap (tableRow thickMin))
  have hz : (pre.map (·.ice)).sum = 0 ∧ (pre.map (·.ejecta)).sum = 0 := by
    rcases hpre with ⟨_, rfl⟩ | ⟨_, s, rest, _, rfl⟩ <;> simp
  rw [← hmap, List.map_map, List.map_append, List.sum_append, hz.1, zero_add] at c1
  rw [← hmap, List.map_map, List.map_append, List.sum_append, hz.2, zero_add] at c2
  have c1 : (out.map (·.ice)).sum = _ := c1
  have c2 : (out.map (·.ejecta)).sum = _ := c2
  rw [c1, c2]
  exact ⟨t1, t2, t3, t4⟩

omit [IsStrictOrderedRing K] in
/-- Among timesteps in order, those younger than an age are the last ones. -/
theorem shown_drop (tol age : K) (saa : Bool) : ∀ (steps : List (Step K)), (steps.map (·.time)).Pairwise (· > ·) →
    ∃ first ≤ steps.length, shown tol age saa steps = steps.drop first ∧
      ∀ (i : Nat) s, steps[i]? = some s → (first ≤ i ↔ (saa = true → s.time < age + |age| * tol))
  | [], _ => ⟨0, le_rfl, rfl, by simp⟩
  | s :: l, h => by
    rw [List.map_cons, List.pairwise_cons] at h
    obtain ⟨n, n1, n2, n3⟩ := shown_drop tol age saa l h.2
    by_cases hs : saa = true → s.time < age + |age| * tol
    · have hall : ∀ t ∈ s :: l, (saa = true → t.time < age + |age| * tol) := by
        intro t ht hsaa
        rcases List.mem_cons.1 ht with rfl | ht
        · exact hs hsaa
        · exact (h.1 _ (List.mem_map_of_mem ht)).trans (hs hsaa)
      refine ⟨0, Nat.zero_le _, ?_, ?_⟩
      · rw [shown, List.drop_zero, List.filter_eq_self]
        intro t ht
        exact decide_eq_true (hall t ht)
      · intro i t ht
        exact ⟨fun _ => hall t (List.mem_of_getElem? ht), fun _ => Nat.zero_le _⟩
    · refine ⟨n + 1, by rw [List.length_cons]; omega, ?_, ?_⟩
      · rw [shown, List.filter_cons_of_neg (by simpa using hs), List.drop_succ_cons]
        exact n2
      · intro i t ht
        rcases i with _ | i
        · injection ht with ht
          subst ht
          exact ⟨fun h0 => absurd h0 (by omega), fun h0 => absurd h0 hs⟩
        · rw [Nat.add_le_add_iff_right]
          exact n3 i t ht

end

variable {σ : Type}

/-- **C168** In every run, for every cold trap: the table leaves out at most `thickness_min` of ice and as much of
ejecta for each timestep since the cold trap formed, and the depth of each layer is that of its base in the column but
for at most twice that for each timestep since. -/
theorem C168_run (g : Gen σ) (hg : LawfulGen g) (c : RunCfg) (d : RunData) (hc : PhysicalCfg c)
    (hd : PhysicalData c d) (hl : Lunar c d) (hnd : c.coldtrap_names.Nodup) (hmin : 0 ≤ c.thickness_min)
    (hdt : 0 < c.timestep) (hts : c.timestep < c.timestart) (hspan : c.timestep ≤ c.timestart - c.timeend)
    (out : CsvOut) (hrun : runMain g c d = .ok out) :
    ∃ df s time, craterBasinList g c d (g.init c.seed) = .ok (df, s) ∧
      getTimeArray c.timestart c.timeend c.timestep = .ok time ∧
      ∀ name ∈ c.coldtrap_names, ∃ trap ∈ df, trap.rest.crater.cname = name ∧
        ∃ (ice ej : List ℝ) (table : List (StratRow ℝ)) (first : Nat), out.ice.get name = .ok ice ∧
          out.ej.get name = .ok ej ∧ out.strat.get name = .ok table ∧ ice.length = time.length ∧
          ej.length = time.length ∧ first ≤ time.length ∧
          (∀ (i : Nat) t, time[i]? = some t →
            (first ≤ i ↔ (c.strat_after_age = true → t < trap.age + |trap.age| * 1e-6))) ∧
          (table.map (·.ice)).sum ≤ (ice.drop first).sum ∧
          (ice.drop first).sum ≤ (table.map (·.ice)).sum + c.thickness_min * (time.length - first : Nat) ∧
          (table.map (·.ejecta)).sum ≤ (ej.drop first).sum ∧
          (ej.drop first).sum ≤ (table.map (·.ejecta)).sum + c.thickness_min * (time.length - first : Nat) ∧
          ∀ (k : Nat) r, table[k]? = some r → ∃ i, first ≤ i ∧ i ≤ time.length ∧
            r.depth ≤ (ice.drop i).sum + (ej.drop i).sum ∧
            (ice.drop i).sum + (ej.drop i).sum ≤ r.depth + 2 * c.thickness_min * (time.length - i : Nat) := by
  obtain ⟨df, s, time, h1, h2, h3⟩ := run_steps_nonneg g hg c d hc hd hl hnd out hrun
  obtain ⟨l, hl1, -, -, hl2, -⟩ := C19_shape_partial c.timestart c.timeend c.timestep hdt hts hspan
  rw [h2] at hl1
  injection hl1 with hl1
  subst hl1
  refine ⟨df, s, time, h1, h2, ?_⟩
  intro name hn
  obtain ⟨trap, t1, t2, steps, table, a1, a2, a3, a4, a5, a6, -⟩ := h3 name hn
  obtain ⟨first, f1, f2, f3⟩ := shown_drop RunCfg.rtol trap.age c.strat_after_age steps (by rw [a4]; exact hl2)
  have hlen : steps.length = time.length := by rw [← a4, List.length_map]
  have hcount : ∀ l : List (Step ℝ), ∀ x : ℝ, 0 ≤ x →
      x * (l.countP fun s => decide (Thin c.thickness_min s) : Nat) ≤ x * (l.length : Nat) := fun l x hx =>
    mul_le_mul_of_nonneg_left (by exact_mod_cast List.countP_le_length) hx
  obtain ⟨b1, b2, b3, b4⟩ := C168_totals c.thickness_min RunCfg.rtol trap.age c.strat_after_age steps a6 table a5
  rw [f2] at b1 b2 b3 b4
  have e1 := hcount (steps.drop first) c.thickness_min hmin
  rw [List.length_drop, hlen] at e1
  refine ⟨trap, t1, t2, steps.map (·.ice), steps.map (·.ejecta), table, first, a1, a2, a3,
    by rw [List.length_map, hlen], by rw [List.length_map, hlen], hlen ▸ f1, ?_, ?_, ?_, ?_, ?_, ?_⟩
  · intro i t ht
    rw [← a4, List.getElem?_map] at ht
    cases hs : steps[i]? with
    | none => rw [hs] at ht; cases ht
    | some st =>
      rw [hs] at ht
      injection ht with ht
      have ht : st.time = t := ht
      rw [f3 i st hs, ht]
      rfl
  · rw [← List.map_drop]; exact b1
  · rw [← List.map_drop]; exact b2.trans (by linarith)
  · rw [← List.map_drop]; exact b3
  · rw [← List.map_drop]; exact b4.trans (by linarith)
  · intro k r hr
    obtain ⟨older, younger, k1, k2, k3, -⟩ := C168_depth c.thickness_min RunCfg.rtol trap.age c.strat_after_age steps
      a6 table a5 k r hr
    have hy : younger = steps.drop (first + older.length) := by
      rw [← List.drop_drop, ← f2, k1, List.drop_left]
    have hle : (older ++ younger).length = steps.length - first := by rw [← k1, f2, List.length_drop]
    rw [List.length_append] at hle
    have hy' : ((steps.map (·.ice)).drop (first + older.length)).sum +
        ((steps.map (·.ejecta)).drop (first + older.length)).sum = total younger := by
      rw [hy, total, List.sum_map_add, List.map_drop, List.map_drop]
    have e2 := hcount younger (2 * c.thickness_min) (by linarith)
    refine ⟨first + older.length, by omega, by omega, ?_, ?_⟩
    · rw [hy']; exact k2
    · rw [hy']
      refine k3.trans ?_
      have : younger.length = time.length - (first + older.length) := by omega
      rw [← this]
      linarith

/-- **C168** With the default configuration and the shipped files, whatever the seed, depths in the tables are those of
the columns to within 0.85 m. -/
theorem C168_default (g : Gen σ) (hg : LawfulGen g) (nk : List (ℝ × ℝ)) (sortAges : CraterTable → CraterTable)
    (sortNk : List (ℝ × ℝ) → List (ℝ × ℝ)) (setOrder : List (List Char) → List (List Char))
    (hs : SortDesc sortAges) (seed : Int) :
    ∃ out, runMain g (RunCfg.default seed) (shippedData nk sortAges sortNk setOrder) = .ok out ∧
      ∀ name ∈ (RunCfg.default seed).coldtrap_names, ∃ (ice ej : List ℝ) (table : List (StratRow ℝ)),
        out.ice.get name = .ok ice ∧ out.ej.get name = .ok ej ∧ out.strat.get name = .ok table ∧
        ∀ r ∈ table, ∃ i ≤ ice.length, r.depth ≤ (ice.drop i).sum + (ej.drop i).sum ∧
          (ice.drop i).sum + (ej.drop i).sum ≤ r.depth + 0.85 := by
  have hd := default_data nk sortAges sortNk setOrder hs seed
  have hr := default_runnable nk sortAges sortNk setOrder seed
  obtain ⟨out, h1⟩ := C72_returns g hg _ _ (default_physical seed) hd hr
  have e1 : (RunCfg.default seed).timestep = 10e6 := rfl
  have e2 : (RunCfg.default seed).timestart = 4.25e9 := rfl
  have e3 : (RunCfg.default seed).timeend = 0 := rfl
  have e4 : (RunCfg.default seed).thickness_min = 1e-3 := rfl
  obtain ⟨df, s, time, h2, h3, h4⟩ := C168_run g hg _ _ (default_physical seed) hd
    (default_lunar nk sortAges sortNk setOrder seed) hr.nodup (by rw [e4]; norm_num) (by rw [e1]; norm_num)
    (by rw [e1, e2]; norm_num) (by rw [e1, e2, e3]; norm_num) out h1
  obtain ⟨l, l1, l2, -⟩ := C19_shape_partial (4.25e9 : ℝ) 0 10e6 (by norm_num) (by norm_num) (by norm_num)
  rw [e1, e2, e3, l1] at h3
  injection h3 with h3
  subst h3
  have hlen : l.length = 425 := by
    have : ⌊((4.25e9 : ℝ) - 0) / 10e6⌋ = 425 := by
      rw [show ((4.25e9 : ℝ) - 0) / 10e6 = ((425 : ℤ) : ℝ) by norm_num, Int.floor_intCast]
    omega
  refine ⟨out, h1, fun name hn => ?_⟩
  obtain ⟨trap, -, -, ice, ej, table, first, a1, a2, a3, a4, a5, a6, -, -, -, -, -, a7⟩ := h4 name hn
  refine ⟨ice, ej, table, a1, a2, a3, fun r hr => ?_⟩
  obtain ⟨k, hk⟩ := List.mem_iff_getElem?.1 hr
  obtain ⟨i, i1, i2, i3, i4⟩ := a7 k r hk
  refine ⟨i, by rw [a4]; exact i2, i3, i4.trans ?_⟩
  rw [e4, hlen]
  have : ((425 - i : Nat) : ℝ) ≤ 425 := by exact_mod_cast Nat.sub_le _ _
  nlinarith

/-- Three timesteps after the formation of a cold trap, the second too thin for the table: its 0.15 m are missing from
the depth of the layer below. -/
example : (makeStratCol (1 / 10 : ℚ) 0 true 9
      [⟨8, 2, 0, ""⟩, ⟨7, 1 / 10, 1 / 20, ""⟩, ⟨6, 0, 3, "Cabeus"⟩]).map (fun t => t.map (·.depth)) = .ok [5, 5, 3] ∧
    total (shown (0 : ℚ) 9 true [⟨8, 2, 0, ""⟩, ⟨7, 1 / 10, 1 / 20, ""⟩, ⟨6, 0, 3, "Cabeus"⟩]) = 5 + 3 / 20 := by
  decide +kernel

end MoonPIES
