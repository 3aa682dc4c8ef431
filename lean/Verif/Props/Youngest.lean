import Verif.Props.Named

/-!
# C178: a cold trap that nothing reaches after it formed
-/

namespace MoonPIES

open Spec

/-- Rows that all hold ice make at most one layer. -/
theorem merge_ice (l : List (Row ℝ)) (h : ∀ r ∈ l, r.label = "Ice" ∧ r.ejecta = 0) (hne : l ≠ []) :
    ∃ t, mergeAdjacent l = [⟨t, (l.map (·.ice)).sum, 0, "Ice"⟩] := by
  obtain ⟨h1, h2⟩ := C20_totals l
  have hlen := collapse_length "Ice" (l.map (·.label))
  rw [← (C20_labels l).1, List.length_map] at hlen
  have h0 : (l.map (·.label)).filter (fun a => decide (a ≠ "Ice")) = [] := by
    rw [List.filter_eq_nil_iff]
    intro a ha
    obtain ⟨r, hr, rfl⟩ := List.mem_map.1 ha
    simp [(h r hr).1]
  rw [h0] at hlen
  have hle : (mergeAdjacent l).length ≤ 1 := by
    refine hlen.trans ?_
    split <;> simp
  have hej : (l.map (·.ejecta)).sum = 0 := by
    apply List.sum_eq_zero
    intro x hx
    obtain ⟨r, hr, rfl⟩ := List.mem_map.1 hx
    exact (h r hr).2
  have hmem := fun o => isMerge_mem (C20_merge_spec l) o
  cases hm : mergeAdjacent l with
  | nil =>
    exfalso
    have := (C20_labels l).1
    rw [hm] at this
    obtain ⟨a, b, rfl⟩ := List.exists_cons_of_ne_nil hne
    obtain ⟨t, ht⟩ := collapse_head a.label (b.map (·.label))
    rw [List.map_cons, ht] at this
    cases this
  | cons m ms =>
    rw [hm] at hle h1 h2 hmem
    have hms : ms = [] := by
      rw [List.length_cons] at hle
      exact List.length_eq_zero_iff.1 (by omega)
    subst hms
    obtain ⟨r, r1, r2, -⟩ := hmem m (by simp)
    simp only [List.map_cons, List.map_nil, List.sum_cons, List.sum_nil, add_zero] at h1 h2
    refine ⟨m.time, ?_⟩
    rw [hej] at h2
    rw [← h1, List.cons.injEq]
    refine ⟨?_, rfl⟩
    have h3 : m.label = "Ice" := r2.trans (h r r1).1
    cases m
    simp only at h2 h3
    rw [h2, h3]

/-- **C178** a cold trap that gets no ejecta since its formation: below the mark of its formation age its table has nothing, or
one layer of pure ice that holds the ice of all timesteps with more than the least thickness shown. -/
theorem C178_table (thickMin tol age : ℝ) (hmin : 0 ≤ thickMin) (steps : List (Step ℝ)) (out : List (StratRow ℝ))
    (hno : ∀ s ∈ steps, s.time < age + |age| * tol → s.ejecta = 0)
    (h : makeStratCol thickMin tol true age steps = .ok out) :
    ∃ t0 ice, (steps.map (·.time)).find? (fun t => decide (t < age + |age| * tol)) = some t0 ∧ ice = ((steps.filter (fun s => decide (s.time < age + |age| * tol ∧ thickMin < s.ice))).map (·.ice)).sum ∧
      ((ice = 0 ∧ out = [⟨0, 0, "Formation age", t0, 0, none⟩]) ∨
        ∃ t, 0 < ice ∧ out = [⟨0, 0, "Formation age", t0, ice, none⟩, ⟨ice, 0, "Ice", t, ice, some 100⟩]) := by
  obtain ⟨pre, ho, hpre⟩ := makeStratCol_ok h
  rcases hpre with ⟨h', -⟩ | ⟨-, s0, rest, hfirst, rfl⟩
  · cases h'
  rw [dropUnlabelled_tableRow] at ho
  have hrows : (steps.filter (fun s => decide (true = true → s.time < age + |age| * tol))).filterMap (tableRow thickMin) =
      (steps.filter (fun s => decide (s.time < age + |age| * tol ∧ thickMin < s.ice))).map
        (fun s => (⟨s.time, s.ice, 0, "Ice"⟩ : Row ℝ)) := by
    clear ho h hfirst
    induction steps with
    | nil => rfl
    | cons s l ih =>
      have ih := ih (fun s hs => hno s (List.mem_cons_of_mem _ hs))
      by_cases ht : s.time < age + |age| * tol
      · have he := hno s List.mem_cons_self ht
        rw [List.filter_cons_of_pos (by simpa using ht), List.filterMap_cons]
        by_cases hi : thickMin < s.ice
        · rw [List.filter_cons_of_pos (by simpa using ⟨ht, hi⟩), List.map_cons, ← ih]
          have : tableRow thickMin s = some ⟨s.time, s.ice, 0, "Ice"⟩ := by
            unfold tableRow rowLabel
            simp [hi, he, not_lt.2 hmin]
          rw [this]
        · rw [List.filter_cons_of_neg (by simpa using fun _ => not_lt.1 hi), ← ih]
          have : tableRow thickMin s = none := by
            unfold tableRow rowLabel
            simp [hi, he, not_lt.2 hmin]
          rw [this]
      · rw [List.filter_cons_of_neg (by simpa using ht), List.filter_cons_of_neg (by simpa using fun h => absurd h ht)]
        exact ih
  rw [hrows] at ho
  generalize hL : steps.filter (fun s => decide (s.time < age + |age| * tol ∧ thickMin < s.ice)) = L at ho ⊢
  refine ⟨s0.time, (L.map (·.ice)).sum, ?_, rfl, ?_⟩
  · rw [List.find?_map, ← List.head?_filter]
    have : steps.filter ((fun t => decide (t < age + |age| * tol)) ∘ fun s => s.time) = s0 :: rest := hfirst
    rw [this]
    rfl
  have hpos : ∀ s ∈ L, 0 < s.ice := by
    intro s hs
    rw [← hL] at hs
    exact lt_of_le_of_lt hmin (of_decide_eq_true (List.mem_filter.1 hs).2).2
  cases L with
  | nil =>
    refine Or.inl ⟨rfl, ?_⟩
    rw [ho]
    simp [mergeAdjacent, groupRuns, adjKeys, groupInsert, aggRow, addDepthPct, cumsumFrom]
  | cons s l =>
    refine Or.inr ?_
    have hsum : 0 < ((s :: l).map (·.ice)).sum := by
      rw [List.map_cons, List.sum_cons]
      have h1 := hpos s (by simp)
      have h2 : 0 ≤ (l.map (·.ice)).sum := by
        apply List.sum_nonneg
        intro x hx
        obtain ⟨q, q1, rfl⟩ := List.mem_map.1 hx
        exact (hpos q (by simp [q1])).le
      linarith
    obtain ⟨t, ht⟩ := merge_ice ((s :: l).map (fun s => (⟨s.time, s.ice, 0, "Ice"⟩ : Row ℝ))) (by
      intro r hr
      obtain ⟨q, -, rfl⟩ := List.mem_map.1 hr
      exact ⟨rfl, rfl⟩) (by simp)
    rw [List.map_map] at ht
    refine ⟨t, hsum, ?_⟩
    obtain ⟨m, ms, e1, e2⟩ := merge_cons_cons (⟨s0.time, 0, 0, "Formation age"⟩ : Row ℝ) ⟨s.time, s.ice, 0, "Ice"⟩
      (l.map (fun s => (⟨s.time, s.ice, 0, "Ice"⟩ : Row ℝ)))
    rw [List.map_cons] at ht ho
    rw [e1, List.cons.injEq] at ht
    obtain ⟨rfl, rfl⟩ := ht
    rw [if_neg (by simp)] at e2
    rw [ho, List.singleton_append, e2]
    have hr : round4 (100 : ℝ) = 100 := by
      unfold round4
      rw [show (100 : ℝ) * 10000 = ((1000000 : ℤ) : ℝ) by norm_num, roundHalfEven_int]
      norm_num
    have hs' : ((fun r : Row ℝ => r.ice) ∘ fun s : Step ℝ => (⟨s.time, s.ice, 0, "Ice"⟩ : Row ℝ)) = fun s => s.ice := rfl
    rw [hs']
    generalize ((s :: l).map (fun s => s.ice)).sum = S at hsum
    simp [addDepthPct, cumsumFrom, hsum.ne', hr]

/-- The ice of two timesteps in one layer; the thin one is not shown and the ejecta before the cold trap formed do not matter. -/
example : (makeStratCol (1 / 10 : ℚ) 0 true 5 [⟨6, 1, 3, "A"⟩, ⟨4, 1, 0, ""⟩, ⟨3, 1 / 20, 0, ""⟩, ⟨2, 2, 0, ""⟩]) =
    .ok [⟨0, 0, "Formation age", 4, 3, none⟩, ⟨3, 0, "Ice", 2, 3, some 100⟩] := by
  decide +kernel

variable {σ : Type}

open Classical in
/-- **C178** every run that returns: if all craters and basins that leave ejecta in a cold trap are dated to times before it
formed, its table has below the mark of its formation age nothing, or one layer of pure ice. -/
theorem C178_run (g : Gen σ) (hg : LawfulGen g) (c : RunCfg) (d : RunData) (hc : PhysicalCfg c)
    (hd : PhysicalData c d) (hnd : c.coldtrap_names.Nodup) (hmin : 0 ≤ c.thickness_min) (hsaa : c.strat_after_age = true)
    (out : CsvOut) (hrun : runMain g c d = .ok out) :
    ∃ df s time, craterBasinList g c d (g.init c.seed) = .ok (df, s) ∧
      getTimeArray c.timestart c.timeend c.timestep = .ok time ∧
      ∀ name ∈ c.coldtrap_names, ∃ trap ∈ df, trap.rest.crater.cname = name ∧
        ∃ iceCol table, out.ice.get name = .ok iceCol ∧ out.strat.get name = .ok table ∧
        ((∀ q ∈ df, ∀ x, RowEjecta c df name q x → x ≠ 0 → ∀ i t, Nearest time q.age i → time[i]? = some t →
            trap.age + |trap.age| * RunCfg.rtol ≤ t) →
          ∃ t0 ice, time.find? (fun t => decide (t < trap.age + |trap.age| * RunCfg.rtol)) = some t0 ∧
            ice = (((time.zip iceCol).filter (fun p => decide (p.1 < trap.age + |trap.age| * RunCfg.rtol ∧
              c.thickness_min < p.2))).map (·.2)).sum ∧
            ((ice = 0 ∧ table = [⟨0, 0, "Formation age", t0, 0, none⟩]) ∨
              ∃ t, 0 < ice ∧ table = [⟨0, 0, "Formation age", t0, ice, none⟩, ⟨ice, 0, "Ice", t, ice, some 100⟩])) := by
  obtain ⟨df, s, time, hdf, htime, hsteps⟩ := run_steps g hg c d hc hd hnd out hrun
  obtain ⟨df', s', time', k1, k2, k3⟩ := C75_run_ejecta g hg c d hc hd hnd out hrun
  rw [hdf] at k1
  injection k1 with k1
  injection k1 with k1 _
  subst k1
  rw [htime] at k2
  injection k2 with k2
  subst k2
  refine ⟨df, s, time, hdf, htime, ?_⟩
  intro name hn
  obtain ⟨trap, tm, tn, steps, table, a1, a2, a3, a4, a5, -⟩ := hsteps name hn
  obtain ⟨ej, th, b1, -, b3, b4⟩ := k3 name hn
  rw [a2] at b1
  injection b1 with b1
  refine ⟨trap, tm, tn, _, table, a1, a3, ?_⟩
  intro hold
  rw [hsaa] at a5
  obtain ⟨t0, ice, e0, e1, e2⟩ := C178_table _ _ _ hmin steps table (by
    intro st hst hlt
    obtain ⟨i, hi⟩ := List.mem_iff_getElem?.1 hst
    rw [b4 i st.ejecta (by rw [← b1, List.getElem?_map, hi]; rfl)]
    apply List.sum_eq_zero
    intro x hx
    obtain ⟨p, p1, rfl⟩ := List.mem_map.1 hx
    obtain ⟨p1, p2⟩ := List.mem_filter.1 p1
    have p1' : (p.1, p.2) ∈ df.zip th := p1
    by_contra hne
    have := hold p.1 (List.of_mem_zip p1').1 p.2 ((List.forall₂_iff_zip.1 b3).2 p1') hne i st.time (of_decide_eq_true p2).2
      (by rw [← a4, List.getElem?_map, hi]; rfl)
    linarith) a5
  refine ⟨t0, ice, by rw [← a4]; exact e0, ?_, e2⟩
  rw [e1, ← a4, List.zip_map', List.filter_map, List.map_map]
  rfl

theorem shackleton_late : ∀ q ∈ craterFile ++ basinFile,
    (q.cname = "Shackleton" → q.age - q.age_low = 3.07 ∧ q.age + q.age_upp = 3.2) ∧
    (q.cname ∈ reachList "Shackleton" → 3.7 ≤ q.age - q.age_low) := by decide +kernel

open Classical in
/-- **C178** every run on the shipped files with the default times and ejecta scaling, whatever the seed: the table of Shackleton
is the mark of its formation age, and below it nothing or one layer of pure ice. No crater or basin is ever named in it. -/
theorem C178_shackleton (nk : List (ℝ × ℝ)) (sortAges : CraterTable → CraterTable) (sortNk : List (ℝ × ℝ) → List (ℝ × ℝ))
    (setOrder : List (List Char) → List (List Char)) (g : Gen σ) (hg : LawfulGen g) (hs : Spec.SortDesc sortAges) (c : RunCfg)
    (hc : PhysicalCfg c) (hd : PhysicalData c (shippedData nk sortAges sortNk setOrder))
    (hr : Runnable c (shippedData nk sortAges sortNk setOrder)) (he : c.ej = EjCfg.default)
    (hn : ∀ n ∈ c.coldtrap_names, n ∈ (RunCfg.default 1).coldtrap_names) (hsh : "Shackleton" ∈ c.coldtrap_names)
    (hmin : 0 ≤ c.thickness_min) (hsaa : c.strat_after_age = true) (hts : c.timestart = 4.25e9) (hte : c.timeend = 0)
    (hdt : c.timestep = 10e6) :
    ∃ out table t0 ice, runMain g c (shippedData nk sortAges sortNk setOrder) = .ok out ∧
      out.strat.get "Shackleton" = .ok table ∧ t0 < 3.21e9 ∧
      ((ice = 0 ∧ table = [⟨0, 0, "Formation age", t0, 0, none⟩]) ∨
        ∃ t, 0 < ice ∧ table = [⟨0, 0, "Formation age", t0, ice, none⟩, ⟨ice, 0, "Ice", t, ice, some 100⟩]) := by
  obtain ⟨out, hout⟩ := C72_returns g hg c _ hc hd hr
  obtain ⟨df, s, time, hdf, htime, hrows⟩ := C178_run g hg c _ hc hd hr.nodup hmin hsaa out hout
  obtain ⟨trap, tm, tn, iceCol, table, -, h2, h3⟩ := hrows "Shackleton" hsh
  obtain ⟨df', s', hdf', p1, p2⟩ := craterBasinList_ok g hg hc hd hr (g.init c.seed)
  rw [hdf] at hdf'
  injection hdf' with hdf'
  injection hdf' with hdf' _
  subst hdf'
  have hrow := table_rowOf nk sortAges sortNk setOrder g hs c df _ _ hdf ⟨p1, p2⟩
  have hmem : ∀ q r, ((q ∈ craterFile ∧ r = false) ∨ (q ∈ basinFile ∧ r = true)) → q ∈ craterFile ++ basinFile := by
    rintro q r (h | h)
    · exact List.mem_append_left _ h.1
    · exact List.mem_append_right _ h.1
  have hcut : trap.age + |trap.age| * RunCfg.rtol < 3.21e9 := by
    obtain ⟨q, q1, q2, -, -, q3, q4, -⟩ := hrow trap tm
    obtain ⟨a1, a2⟩ := (shackleton_late q (hmem _ _ q2)).1 (by rw [← q1, tn])
    have a1' : (q.age : ℝ) - q.age_low = 3.07 := by
      rw [← Rat.cast_sub, a1]; norm_num
    have a2' : (q.age : ℝ) + q.age_upp = 3.2 := by
      rw [← Rat.cast_add, a2]; norm_num
    rw [a1', hdt] at q3
    rw [a2', hdt] at q4
    have hpos : 0 ≤ trap.age := by linarith
    rw [abs_of_nonneg hpos]
    unfold RunCfg.rtol
    norm_num at q4 ⊢
    linarith
  have hgrid : time = uniformGrid 4.25e9 10e6 425 := by
    rw [hts, hte, hdt, C19_uniform_partial (4.25e9 : ℝ) 10e6 425 (by norm_num) (by norm_num) (by norm_num)] at htime
    injection htime with htime
    exact htime.symm
  have h65 : time[65]? = some (3.6e9 : ℝ) := by
    rw [hgrid]
    unfold uniformGrid
    rw [List.getElem?_map, List.getElem?_range (by norm_num)]
    norm_num
  obtain ⟨t0, ice, e0, -, e2⟩ := h3 (by
    intro q hq x hx hne i t hi ht
    have hin : InReach q.rest.crater.cname "Shackleton" := by
      by_contra hno
      exact hne ((C113_thickness nk sortAges sortNk setOrder g hg hs c hc hd hr he hn df _ s hdf q hq "Shackleton" hsh x hx).2 hno)
    rw [← mem_reachList] at hin
    obtain ⟨f, f1, f2, -, -, f3, -, -⟩ := hrow q hq
    have a1 := (shackleton_late f (hmem _ _ f2)).2 (by rw [← f1]; exact hin)
    have a1' : (3.7 : ℝ) ≤ (f.age : ℝ) - f.age_low := by
      have := (Rat.cast_le (K := ℝ)).2 a1
      push_cast at this
      exact this
    rw [hdt] at f3
    obtain ⟨t', i1, i2, -⟩ := hi
    rw [ht] at i1
    injection i1 with i1
    subst i1
    have h := i2 65 _ h65
    by_contra hlt
    push Not at hlt
    have hlow : (3.6e9 : ℝ) < q.age := by linarith
    rw [abs_of_neg (by linarith), abs_of_neg (by linarith)] at h
    linarith)
  refine ⟨out, table, t0, ice, hout, h2, ?_, e2⟩
  have := List.find?_some e0
  exact lt_trans (of_decide_eq_true this) hcut

/-- C178 holds for every seed of the default configuration. -/
example (seed : Int) := C178_shackleton [] sortDesc id id constGen constGen_lawful sortDesc_spec
  (RunCfg.default seed) (default_physical seed) (default_data _ _ _ _ sortDesc_spec seed)
  (default_runnable _ _ _ _ seed) rfl (fun _ h => h) (by simp [RunCfg.default]) (by norm_num [RunCfg.default]) rfl rfl rfl rfl

end MoonPIES
