import Verif.Lemmas.Shipped

/-!
# C72, C74: complete runs
-/

namespace MoonPIES

open Spec

variable {σ : Type}

theorem sum_filter_le (p : Step ℝ → Bool) (l : List (Step ℝ)) (h : ∀ s ∈ l, 0 ≤ s.ice) :
    ((l.filter p).map (·.ice)).sum ≤ (l.map (·.ice)).sum := by
  induction l with
  | nil => simp
  | cons a l ih =>
    have h1 := ih (fun s hs => h s (by simp [hs]))
    have h2 := h a (by simp)
    rw [List.filter_cons]
    split
    · simp only [List.map_cons, List.sum_cons]; linarith
    · simp only [List.map_cons, List.sum_cons]; linarith

/-- The columns after the main loop of a run. -/
theorem run_cols (g : Gen σ) (hg : LawfulGen g) {c : RunCfg} {d : RunData} (hc : PhysicalCfg c)
    (hd : PhysicalData c d) (hnd : c.coldtrap_names.Nodup) (hne : c.coldtrap_names ≠ [])
    (st : Setup σ) (hst : setup g c d = .ok st) :
    ∃ cols, updateStratCols id ejShield c.impact_gardening_costello c.coldtrap_names st.cols
        st.overturn st.bsedDepth st.bsedFrac = .ok cols ∧
      ∀ name ∈ c.coldtrap_names, ∃ col0 col, st.cols.get name = .ok col0 ∧ cols.get name = .ok col ∧
        col.ej = col0.ej ∧ OnlyLosesIce col0.ice col.ice ∧ col.ice.length = st.time.length ∧
        col.ej.length = st.time.length ∧ col.src.length = st.time.length := by
  have wf := setup_wellFormed g hg hc hd hnd hne st hst
  obtain ⟨ht, s, s', rows, hdf, hice, hrl, hrn, hget, hall⟩ := setup_cols g hg hc hd hnd hne st hst
  obtain ⟨cols, h1, h2⟩ := C09_run_only_loses Rounding.id ejShield c.impact_gardening_costello
    c.coldtrap_names st.cols st.overturn st.bsedDepth st.bsedFrac wf
  refine ⟨cols, h1, ?_⟩
  intro name hn
  obtain ⟨j, hj⟩ := List.mem_iff_getElem?.1 hn
  obtain ⟨col0, hcol0, _⟩ := hget j name hj
  have hkeys : cols.map (·.1) = st.cols.map (·.1) := by
    clear h1 hcol0 hget hall wf
    generalize st.cols = a at h2
    induction h2 with
    | nil => rfl
    | cons h _ ih => rw [List.map_cons, List.map_cons, ih, h.1]
  obtain ⟨col, hcol⟩ : ∃ col, cols.get name = .ok col :=
    PyDict.get_of_key (by rw [hkeys]; exact wf.hasTraps name hn)
  have hrel := get_forall₂ (fun p q h => h.1) h2 hcol0 hcol
  obtain ⟨l1, l2, l3, _⟩ := hall _ (PyDict.mem_of_get hcol0)
  refine ⟨col0, col, hcol0, hcol, hrel.2.1, hrel.2.2.2, ?_, ?_, ?_⟩
  · rw [← hrel.2.2.2.length_eq]; exact l1
  · rw [hrel.2.1]; exact l2
  · rw [hrel.2.2.1]; exact l3

/-- **C72** whenever a run returns, for every generator, configuration and data: each cold trap
has an ice column and a table; every layer of the column lies between 0 and the ice delivered at
that time; the table holds no negative ice, in total no more than the column; and every depth is
the thickness of that layer and all above it. -/
theorem C72_tables (g : Gen σ) (hg : LawfulGen g) (c : RunCfg) (d : RunData) (hc : PhysicalCfg c)
    (hd : PhysicalData c d) (hnd : c.coldtrap_names.Nodup) (out : CsvOut)
    (hrun : runMain g c d = .ok out) :
    ∃ df s time delivered s', craterBasinList g c d (g.init c.seed) = .ok (df, s) ∧
      getTimeArray c.timestart c.timeend c.timestep = .ok time ∧
      iceCols g c d df time s = .ok (delivered, s') ∧ delivered.length = time.length ∧
      ∀ (j : Nat) name, c.coldtrap_names[j]? = some name → ∃ ice ej table,
        out.ice.get name = .ok ice ∧ out.ej.get name = .ok ej ∧ out.strat.get name = .ok table ∧
        ice.length = time.length ∧ ej.length = time.length ∧
        (∀ (i : Nat) x, ice[i]? = some x → ∃ row y, delivered[i]? = some row ∧ row[j]? = some y ∧
          0 ≤ x ∧ x ≤ y) ∧
        (∀ r ∈ table, 0 ≤ r.ice) ∧ (table.map (·.ice)).sum ≤ ice.sum ∧
        ∀ (i : Nat) r, table[i]? = some r →
          r.depth = ((table.drop i).map (fun r => r.ice + r.ejecta)).sum := by
  unfold runMain at hrun
  obtain ⟨st, hst, hrun⟩ := bind_ok_inv hrun
  obtain ⟨cols, hcols, hrun⟩ := bind_ok_inv hrun
  have hrun := liftPy_ok hrun
  have hcols := liftPy_ok hcols
  obtain ⟨hne, hfmt⟩ := formatCsv_inv _ _ _ _ _ _ hrun
  obtain ⟨ht, s, s', rows, hdf, hice, hrl, hrn, hget, hall⟩ := setup_cols g hg hc hd hnd hne st hst
  obtain ⟨s1, s2, dists, thick, h1, -⟩ := setup_inv g c d st hst
  obtain ⟨cols', hc1, hc2⟩ := run_cols g hg hc hd hnd hne st hst
  rw [hc1] at hcols
  cases hcols
  refine ⟨st.df, s, st.time, rows, s', hdf, h1, hice, hrl, ?_⟩
  intro j name hj
  have hn := List.mem_of_getElem? hj
  obtain ⟨r, hr, hrn', col, table, t1, t2, t3, t4, t5⟩ := hfmt name hn
  obtain ⟨col0, col', k1, k2, k3, k4, k5, k6, k7⟩ := hc2 name hn
  rw [t1] at k2
  cases k2
  obtain ⟨col0', k8, k9⟩ := hget j name hj
  rw [k1] at k8
  cases k8
  obtain ⟨u1, u2, u3⟩ := toSteps_time st.time col k5 k6 k7
  have hcolnn : ∀ x ∈ col.ice, 0 ≤ x := by
    intro x hx
    obtain ⟨i, hi⟩ := List.mem_iff_getElem?.1 hx
    have hil := (List.getElem?_eq_some_iff.1 hi).1
    have := (List.forall₂_iff_get.1 k4).2 i (by rw [k4.length_eq]; exact hil) hil
    have e : col.ice.get ⟨i, hil⟩ = x := (List.getElem?_eq_some_iff.1 hi).2
    rw [e] at this
    exact this.1
  have hstep : ∀ s ∈ toSteps st.time col, 0 ≤ s.ice := by
    intro s hs
    apply hcolnn
    rw [← u2]
    exact List.mem_map_of_mem hs
  refine ⟨col.ice, col.ej, table, t3, t4, t5, k5, k6, ?_, strat_ice_nonneg hstep t2, ?_,
    (C22_depth_cumulative _ _ _ _ _ _ t2).1⟩
  · intro i x hi
    have hil := (List.getElem?_eq_some_iff.1 hi).1
    have hrel := (List.forall₂_iff_get.1 k4).2 i (by rw [k4.length_eq]; exact hil) hil
    have e : col.ice.get ⟨i, hil⟩ = x := (List.getElem?_eq_some_iff.1 hi).2
    rw [e] at hrel
    have hit : i < rows.length := by rw [hrl, ← k5]; exact hil
    obtain ⟨m1, m2⟩ := column_spec (List.getElem?_eq_some_iff.1 hj).1 rows
      (fun row hr => (hrn row hr).1)
    have m3 := m2 i _ (List.getElem?_eq_getElem hit)
    refine ⟨rows[i], col0.ice.get ⟨i, by rw [k4.length_eq]; exact hil⟩,
      List.getElem?_eq_getElem hit, ?_, hrel⟩
    rw [← m3, ← k9, List.get_eq_getElem]
    exact List.getElem?_eq_getElem _
  · rw [(C21_accounting _ _ _ _ _ _ t2).1, ← u2]
    exact sum_filter_le _ _ hstep

/-- **C72** no stage of a run fails on usable inputs, whatever the generator draws. -/
theorem C72_returns (g : Gen σ) (hg : LawfulGen g) (c : RunCfg) (d : RunData) (hc : PhysicalCfg c)
    (hd : PhysicalData c d) (hr : Runnable c d) : ∃ out, runMain g c d = .ok out := by
  obtain ⟨st, hst, hlast, hgt⟩ := setup_ok g hg hc hd hr
  obtain ⟨cols, hc1, hc2⟩ := run_cols g hg hc hd hr.nodup hr.names st hst
  obtain ⟨ages, ha⟩ := trapAges_ok hr hgt
  obtain ⟨hin, hages⟩ := trapAges_inv _ _ _ ha
  obtain ⟨res, hf, hfl⟩ := formatLoop_ok c st.time cols ages (⟨[], [], [], []⟩, []) (by
    intro p hp
    obtain ⟨q1, row, q2, q3, q4⟩ := hages p hp
    obtain ⟨col0, col, k1, k2, k3, k4, k5, k6, k7⟩ := hc2 p.1 q1
    refine ⟨col, ?_⟩
    obtain ⟨table, ht⟩ := makeStratCol_total c.thickness_min RunCfg.rtol p.2 c.strat_after_age
      (toSteps st.time col) (by
        obtain ⟨u1, u2, u3⟩ := toSteps_time st.time col k5 k6 k7
        have hm : c.timestep ∈ (toSteps st.time col).map (·.time) := by rw [u1]; exact hlast
        obtain ⟨s, hs, hs'⟩ := List.mem_map.1 hm
        refine ⟨s, hs, ?_⟩
        obtain ⟨raw, w1, b, icy, w2, w3, w4, w5, w6, n, w7⟩ := hgt.rows row q2
        have hname : raw.cname = p.1 := by rw [← q3, w4]; rfl
        have hold := hr.old raw w1 (by rw [hname]; exact q1)
        have hts := hc.ts
        have hw5 : (raw.age - raw.age_low) * 1e9 - c.timestep / 2 ≤ row.age := by
          simp only [readRow] at w5; linarith
        have hn : (0 : ℝ) < n := by
          have : 0 < (n : ℝ) * c.timestep := by rw [← w7]; linarith
          exact pos_of_mul_pos_left this hts.le
        have hn1 : (1 : ℝ) ≤ n := by exact_mod_cast (by exact_mod_cast hn : (0 : ℤ) < n)
        have hage : c.timestep ≤ p.2 := by rw [← q4, w7]; nlinarith
        rw [hs', abs_of_pos (by linarith)]
        have : 0 < RunCfg.rtol := by unfold RunCfg.rtol; norm_num
        nlinarith [mul_pos (show 0 < p.2 by linarith) this])
    exact ⟨table, k2, ht⟩)
  have hne : ages ≠ [] := by
    rintro rfl
    obtain ⟨n, hn⟩ := List.exists_mem_of_ne_nil _ hr.names
    simpa using hin n hn
  obtain ⟨o, srcs⟩ := res
  have hs : srcs ≠ [] := by
    intro h
    rw [h] at hfl
    simp only [List.length_nil, Nat.zero_add] at hfl
    exact hne (List.length_eq_zero_iff.1 hfl.symm)
  refine ⟨{ o with labels := (getAllLabels d.setOrder (((List.range st.time.length).map
      (column srcs)).map (fun row => row.map String.toList))).map String.ofList }, ?_⟩
  unfold runMain
  simp only [bind, Except.bind, hst, hc1, liftPy]
  unfold formatCsv
  simp only [bind, Except.bind, ha, hf, if_neg hs]

/-- **C72** a run returns only if every cold trap is listed in the crater or basin file. -/
theorem C72_traps_listed (g : Gen σ) (c : RunCfg) (d : RunData) (hs : Spec.SortDesc d.sortAges)
    (out : CsvOut) (hrun : runMain g c d = .ok out) :
    ∀ name ∈ c.coldtrap_names, ∃ r ∈ d.craters ++ d.basins, r.cname = name := by
  unfold runMain at hrun
  obtain ⟨st, hst, hrun⟩ := bind_ok_inv hrun
  obtain ⟨cols, hcols, hrun⟩ := bind_ok_inv hrun
  obtain ⟨hne, hfmt⟩ := formatCsv_inv _ _ _ _ _ _ (liftPy_ok hrun)
  intro name hn
  obtain ⟨r, hr, hrn, -⟩ := hfmt name hn
  obtain ⟨s1, s2, dists, thick, -, h2, -⟩ := setup_inv g c d st hst
  obtain ⟨z, mid, h3, h4⟩ := craterBasinList_inv g c d _ _ _ h2
  have hm : r ∈ mid := by
    rw [h4] at hr
    exact (hs mid).1.mem_iff.1 hr
  have hrest : r.rest ∈ (rawTable g c d (g.init c.seed)).map (·.rest) := by
    rw [← newAges_rest _ _ _ _ _ h3]; exact List.mem_map_of_mem hm
  obtain ⟨q, hq, e⟩ := List.mem_map.1 hrest
  obtain ⟨raw, hraw, b, icy, hq'⟩ := rawTable_mem g c d _ q hq
  refine ⟨raw, hraw, ?_⟩
  rw [← hrn, ← e, hq']
  rfl

/-! ## C74: the shipped configuration and data -/

/-- A generator for examples: smallest values throughout. -/
noncomputable def constGen : Gen Unit where
  init _ := ()
  random n _ := (List.replicate n 0, ())
  choice l n _ _ := (List.replicate n (l.headD 0), ())
  choiceIdx _ n _ _ := (List.replicate n 0, ())
  truncnorm a _ n _ := (List.replicate n a, ())
  truncnormEach l _ := (l.map (·.1), ())

theorem validProbs_pos {k : Nat} {p : List ℝ} (h : ValidProbs k p) : 0 < k := by
  obtain ⟨h1, -, h3⟩ := h
  rcases Nat.eq_zero_or_pos k with rfl | h
  · rw [List.length_eq_zero_iff] at h1
    rw [h1] at h3
    simp at h3
  · exact h

theorem constGen_lawful : LawfulGen constGen where
  random_length n s := by simp [constGen]
  random_range n s x hx := by
    rw [List.eq_of_mem_replicate hx]; norm_num
  choice_length l n p s h := by simp [constGen]
  choice_mem l n p s h x hx := by
    rw [List.eq_of_mem_replicate hx]
    cases l with
    | nil => exact absurd (validProbs_pos h) (by simp)
    | cons a l => simp
  choiceIdx_length k n p s h := by simp [constGen]
  choiceIdx_lt k n p s h i hi := by
    rw [List.eq_of_mem_replicate hi]; exact validProbs_pos h
  truncnorm_length a b n s h := by simp [constGen]
  truncnorm_range a b n s h z hz := by
    rw [List.eq_of_mem_replicate hz]
    exact ⟨le_rfl, fun b' hb => (h b' hb).le⟩
  each_length l s h := by simp [constGen]
  each_range l s h i p z hp hz := by
    simp only [constGen, List.getElem?_map, hp, Option.map_some, Option.some.injEq] at hz
    subst hz
    exact ⟨le_rfl, (h p (List.mem_of_getElem? hp)).le⟩

open Classical in
/-- A sort by decreasing age, for examples. -/
noncomputable def sortDesc (l : CraterTable) : CraterTable :=
  l.mergeSort (fun a b => decide (b.age ≤ a.age))

theorem sortDesc_spec : Spec.SortDesc sortDesc := by
  intro l
  refine ⟨List.mergeSort_perm _ _, ?_⟩
  have := List.pairwise_mergeSort (le := fun a b : CraterAge ℝ CraterCols => decide (b.age ≤ a.age))
    (fun a b c h1 h2 => by simp only [decide_eq_true_eq] at *; linarith)
    (fun a b => by simp only [Bool.or_eq_true, decide_eq_true_eq]; exact le_total _ _) l
  rw [List.pairwise_map]
  refine List.Pairwise.imp ?_ this
  intro a b h
  simpa using h

variable (nk : List (ℝ × ℝ)) (sortAges : CraterTable → CraterTable)
  (sortNk : List (ℝ × ℝ) → List (ℝ × ℝ)) (setOrder : List (List Char) → List (List Char))

/-- **C74** with the default configuration of either mode at the south pole and the shipped data
files, a run returns for every seed, every generator, every order of rows with equal age and every
set order. -/
theorem C74_default_returns (g : Gen σ) (hg : LawfulGen g) (hs : Spec.SortDesc sortAges)
    (seed : Int) :
    (∃ out, runMain g (RunCfg.default seed) (shippedData nk sortAges sortNk setOrder) = .ok out) ∧
    ∃ out, runMain g (RunCfg.cannon seed) (shippedData nk sortAges sortNk setOrder) = .ok out :=
  ⟨C72_returns g hg _ _ (default_physical seed) (default_data _ _ _ _ hs seed)
      (default_runnable _ _ _ _ seed),
    C72_returns g hg _ _ (cannon_physical seed) (cannon_data _ _ _ _ hs seed)
      (cannon_runnable _ _ _ _ seed)⟩

theorem north_not_listed : ¬ ∃ r ∈ craterFile ++ basinFile, r.cname = "Hermite" := by
  decide +kernel

/-- **C74** at the north pole no configuration completes a run with the shipped data: its cold
traps are not in the crater list. -/
theorem C74_north_never_returns (g : Gen σ) (hs : Spec.SortDesc sortAges) (c : RunCfg)
    (out : CsvOut) :
    runMain g c.north (shippedData nk sortAges sortNk setOrder) ≠ .ok out := by
  intro h
  obtain ⟨r, hr, hn⟩ := C72_traps_listed g c.north _ hs out h "Hermite" (by simp [RunCfg.north])
  obtain ⟨q, hq, rfl⟩ := shipped_rows _ _ _ _ hr
  exact north_not_listed ⟨q, hq, hn⟩

/-- The hypotheses of C72 and C74 hold for the shipped files: twelve tables for seed 1. -/
example : ∃ out, runMain constGen (RunCfg.default 1) (shippedData [] sortDesc id id) = .ok out ∧
    ∀ name ∈ (RunCfg.default 1).coldtrap_names, ∃ table, out.strat.get name = .ok table := by
  obtain ⟨⟨out, h⟩, -⟩ := C74_default_returns [] sortDesc id id constGen constGen_lawful
    sortDesc_spec 1
  refine ⟨out, h, ?_⟩
  obtain ⟨df, s, time, rows, s', -, -, -, -, hall⟩ := C72_tables constGen constGen_lawful _ _
    (default_physical 1) (default_data _ _ _ _ sortDesc_spec 1)
    (default_runnable [] sortDesc id id 1).nodup out h
  intro name hn
  obtain ⟨j, hj⟩ := List.mem_iff_getElem?.1 hn
  obtain ⟨ice, ej, table, -, -, ht, -⟩ := hall j name hj
  exact ⟨table, ht⟩

end MoonPIES
