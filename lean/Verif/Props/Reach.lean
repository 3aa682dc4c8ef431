import Verif.Lemmas.ReachTable
import Verif.Lemmas.BasinThick
import Verif.Props.MainLabels
import Verif.Lemmas.Shipped

/-!
# C112, C113: which ejecta reach which cold trap, and what the layers are named after
-/

namespace MoonPIES

open Real InnerProductGeometry Spec

variable {σ : Type}

/-- Spec: the table of craters and basins that reach a cold trap. -/
def Spec.InReach (src trap : String) : Prop :=
  ∃ e ∈ craterReach ++ basinReach, e.1 = trap ∧ src ∈ e.2

/-- Facts of the files and tables. -/
theorem reach_facts : (∀ e ∈ craterReach, ∀ b ∈ basinFile, b.cname ∉ e.2) ∧
    (∀ e ∈ basinReach, ∀ b ∈ craterFile, b.cname ∉ e.2) ∧
    craterReach.map (·.1) = basinReach.map (·.1) ∧ (craterReach.map (·.1)).Nodup ∧
    (craterFile.map (·.cname)).Nodup := by decide +kernel

theorem reach_row {tab : List (String × List String)} {k : ℚ} {file : List FileRow}
    (h : checkTable k file tab = true) (hnd : (tab.map (·.1)).Nodup) (trap : FileRow)
    (ht : trap ∈ craterFile) (hn : trap.cname ∈ tab.map (·.1)) (src : FileRow) (hs : src ∈ file) :
    Reaches k src trap ↔ ∃ e ∈ tab, e.1 = trap.cname ∧ src.cname ∈ e.2 := by
  obtain ⟨e, he, hen⟩ := List.mem_map.1 hn
  obtain ⟨t, h1, h2, h3⟩ := checkTable_sound h e he
  have htt : t = trap := by
    have hm : t ∈ craterFile := List.mem_of_find?_eq_some h1
    have hinj := reach_facts.2.2.2.2
    exact List.inj_on_of_nodup_map hinj hm ht (by rw [h2, hen])
  rw [← htt, h3 src hs]
  constructor
  · intro hm
    exact ⟨e, he, h2.symm, hm⟩
  · rintro ⟨e', he', hen', hm⟩
    have : e' = e := List.inj_on_of_nodup_map hnd he' he (by rw [hen', h2])
    rwa [← this]

theorem reach_names : (RunCfg.default 1).coldtrap_names.Perm (craterReach.map (·.1)) := by
  show (["Haworth", "Shoemaker", "Faustini", "Shackleton", "Slater", "Amundsen", "Cabeus",
    "Sverdrup", "de Gerlache", "Idel'son L", "Wiechert J", "Cabeus B"] : List String).Perm _
  decide +kernel

/-- **C112** exactly the listed craters and basins reach a cold trap of the default
configuration. -/
theorem C112_reach (trap : FileRow) (ht : trap ∈ craterFile)
    (hn : trap.cname ∈ (RunCfg.default 1).coldtrap_names) :
    (∀ src ∈ craterFile, Reaches 4 src trap ↔ InReach src.cname trap.cname) ∧
    (∀ src ∈ basinFile, Reaches 5 src trap ↔ InReach src.cname trap.cname) := by
  obtain ⟨f1, f2, f3, f4, -⟩ := reach_facts
  have hn1 := reach_names.mem_iff.1 hn
  unfold InReach
  constructor
  · intro src hs
    have := reach_row craterReach_checked f4 trap ht hn1 src hs
    push_cast at this
    rw [this]
    constructor
    · rintro ⟨e, he, h⟩; exact ⟨e, List.mem_append_left _ he, h⟩
    · rintro ⟨e, he, h1, h2⟩
      rcases List.mem_append.1 he with he | he
      · exact ⟨e, he, h1, h2⟩
      · exact absurd h2 (f2 e he src hs)
  · intro src hs
    have := reach_row basinReach_checked (f3 ▸ f4) trap ht (f3 ▸ hn1) src hs
    push_cast at this
    rw [this]
    constructor
    · rintro ⟨e, he, h⟩; exact ⟨e, List.mem_append_right _ he, h⟩
    · rintro ⟨e, he, h1, h2⟩
      rcases List.mem_append.1 he with he | he
      · exact absurd h2 (f1 e he src hs)
      · exact ⟨e, he, h1, h2⟩

/-- The table has 49 pairs of a crater and a trap, and 59 of a basin and a trap; Shackleton, youngest
and next to the pole, is reached by nine craters. -/
example : (craterReach.map (·.2.length)).sum = 49 ∧ (basinReach.map (·.2.length)).sum = 59 ∧
    InReach "Slater" "Shackleton" := by
  refine ⟨by decide, by decide, ?_⟩
  exact ⟨("Shackleton", ["Haworth", "Shoemaker", "Faustini", "Amundsen", "de Gerlache", "Cabeus",
    "Nobile", "Slater", "Sverdrup"]), by decide, rfl, by decide⟩

/-- Rows of the table of a run come from one of both files. -/
theorem table_rows (g : Gen σ) (c : RunCfg) (d : RunData) (hs : Spec.SortDesc d.sortAges)
    (df : CraterTable) (s s' : σ) (h : craterBasinList g c d s = .ok (df, s')) :
    ∀ r ∈ df, (∃ raw ∈ d.craters, r.rest = (readRow false "no" raw).rest) ∨
      ∃ raw ∈ d.basins, ∃ icy, r.rest = (readRow true icy raw).rest := by
  obtain ⟨z, mid, h3, h4⟩ := craterBasinList_inv g c d _ _ _ h
  intro r hr
  have hm : r ∈ mid := by
    rw [h4] at hr
    exact (hs mid).1.mem_iff.1 hr
  have hrest : r.rest ∈ (rawTable g c d s).map (·.rest) := by
    rw [← newAges_rest _ _ _ _ _ h3]; exact List.mem_map_of_mem hm
  obtain ⟨q, hq, e⟩ := List.mem_map.1 hrest
  unfold rawTable at hq
  rcases List.mem_append.1 hq with hq | hq
  · obtain ⟨raw, hraw, rfl⟩ := List.mem_map.1 hq
    exact Or.inl ⟨raw, hraw, e.symm⟩
  · rw [← List.map_uncurry_zip_eq_zipWith] at hq
    obtain ⟨p, hp, rfl⟩ := List.mem_map.1 hq
    exact Or.inr ⟨p.1, (List.of_mem_zip hp).1, p.2, e.symm⟩

section run

variable (nk : List (ℝ × ℝ)) (sortAges : CraterTable → CraterTable)
  (sortNk : List (ℝ × ℝ) → List (ℝ × ℝ)) (setOrder : List (List Char) → List (List Char))

/-- A row of a run in terms of the files. -/
theorem shipped_table_rows (g : Gen σ) (hs : Spec.SortDesc sortAges) (c : RunCfg)
    (df : CraterTable) (s s' : σ)
    (h : craterBasinList g c (shippedData nk sortAges sortNk setOrder) s = .ok (df, s')) :
    ∀ r ∈ df, ∃ q : FileRow, r.rest.crater.cname = q.cname ∧ r.rest.crater.lat = q.lat ∧
      r.rest.crater.lon = q.lon ∧ r.rest.crater.rad = q.diam * 1000 / 2 ∧
      r.rest.crater.psr = q.psr.map (fun p => ((p.1 : ℝ), (p.2 : ℝ))) ∧
      ((q ∈ craterFile ∧ r.rest.crater.isbasin = false) ∨
        (q ∈ basinFile ∧ r.rest.crater.isbasin = true)) := by
  intro r hr
  rcases table_rows g c _ hs df s s' h r hr with ⟨raw, h1, h2⟩ | ⟨raw, h1, icy, h2⟩
  · simp only [shippedData, List.mem_map] at h1
    obtain ⟨q, hq, rfl⟩ := h1
    rw [h2]
    exact ⟨q, rfl, rfl, rfl, rfl, rfl, Or.inl ⟨hq, rfl⟩⟩
  · simp only [shippedData, List.mem_map] at h1
    obtain ⟨q, hq, rfl⟩ := h1
    rw [h2]
    exact ⟨q, rfl, rfl, rfl, rfl, rfl, Or.inr ⟨hq, rfl⟩⟩

/-- **C112** in every run on the shipped files with the default thresholds and some of the default
cold traps, whatever the seed and the other settings, a row of the crater table has a distance to
a cold trap exactly when the table lists it, and then less than five radii; otherwise the distance
is missing. -/
theorem C112_run (g : Gen σ) (hg : LawfulGen g) (hs : Spec.SortDesc sortAges) (c : RunCfg)
    (hc : PhysicalCfg c) (hd : PhysicalData c (shippedData nk sortAges sortNk setOrder))
    (hr : Runnable c (shippedData nk sortAges sortNk setOrder))
    (h4 : c.ej_threshold = 4) (h5 : c.basin_ej_threshold = 5)
    (hn : ∀ n ∈ c.coldtrap_names, n ∈ (RunCfg.default 1).coldtrap_names) (s0 : σ) :
    ∃ df s, craterBasinList g c (shippedData nk sortAges sortNk setOrder) s0 =
        .ok (df, s) ∧
      ∀ r ∈ df, ∀ name ∈ c.coldtrap_names, ∃ dist,
        coldtrapDist c.ej (df.map (·.rest.crater)) r.rest.crater name = .ok dist ∧
        (InReach r.rest.crater.cname name → ∃ x, dist = some x ∧ r.rest.crater.rad < x ∧
          x < (if r.rest.crater.isbasin then 5 else 4) * r.rest.crater.rad) ∧
        (¬ InReach r.rest.crater.cname name → dist = none) := by
  obtain ⟨df, s', hdf, p1, p2⟩ := craterBasinList_ok g hg hc hd hr s0
  have hgt : GoodTable c _ df := ⟨p1, p2⟩
  refine ⟨df, s', hdf, ?_⟩
  have hrows := shipped_table_rows nk sortAges sortNk setOrder g hs c df _ _ hdf
  have hrad : ∀ q ∈ craterFile ++ basinFile, (0 : ℝ) < q.diam := by
    intro q hq
    exact_mod_cast (file_bars q hq).2.2.2.1
  intro r hrm name hname
  obtain ⟨t, hu⟩ := goodTable_once hr hgt name hname
  have htm : t ∈ (df.map (·.rest.crater)).filter (fun c => decide (c.cname = name)) := by
    rw [hu]; simp
  obtain ⟨htm1, htn⟩ := List.mem_filter.1 htm
  simp only [decide_eq_true_eq] at htn
  obtain ⟨tr, htr, rfl⟩ := List.mem_map.1 htm1
  obtain ⟨qt, t1, t2, t3, t4, t5, t6⟩ := hrows tr htr
  obtain ⟨q, r1, r2, r3, r4, r5, r6⟩ := hrows r hrm
  have hdef := hn name hname
  have hqt : qt ∈ craterFile := by
    rcases t6 with h | h
    · exact h.1
    · exfalso
      have : ∀ b ∈ basinFile, b.cname ∉ craterReach.map (·.1) := by decide +kernel
      exact this qt h.1 (by rw [← t1, htn]; exact reach_names.mem_iff.1 hdef)
  have hq0 : (0 : ℝ) < r.rest.crater.rad := by
    rw [r4]
    have : q ∈ craterFile ++ basinFile := by
      rcases r6 with h | h
      · exact List.mem_append_left _ h.1
      · exact List.mem_append_right _ h.1
    have := hrad q this
    positivity
  have hreach := C112_reach qt hqt (by rw [← t1, htn]; exact hdef)
  -- the distance
  have hval : ∀ x, coldtrapDist c.ej (df.map (·.rest.crater)) r.rest.crater name = .ok (some x) ↔
      r.rest.crater.cname ≠ name ∧ (∃ p, tr.rest.crater.psr = some p ∧
        x = surfaceDist r.rest.crater p.1 p.2) ∧ r.rest.crater.rad < x ∧
      (thresholdOf c.ej r.rest.crater < 0 ∨ x < thresholdOf c.ej r.rest.crater * r.rest.crater.rad) :=
    fun x => coldtrapDist_eq c.ej _ r.rest.crater tr.rest.crater name hu hq0 x
  have hthr : thresholdOf c.ej r.rest.crater = if r.rest.crater.isbasin then 5 else 4 := by
    unfold thresholdOf
    rw [show c.ej.basin_ej_threshold = c.basin_ej_threshold from rfl,
      show c.ej.ej_threshold = c.ej_threshold from rfl, h4, h5]
  have hiff : (∃ x, coldtrapDist c.ej (df.map (·.rest.crater)) r.rest.crater name = .ok (some x)) ↔
      InReach r.rest.crater.cname name := by
    have hR : Reaches (if r.rest.crater.isbasin then 5 else 4) q qt ↔
        InReach r.rest.crater.cname name := by
      rw [r1, ← htn, t1]
      rcases r6 with h | h
      · rw [h.2]; exact hreach.1 q h.1
      · rw [h.2]; exact hreach.2 q h.1
    rw [← hR]
    have hk : ¬ (if r.rest.crater.isbasin then (5 : ℝ) else 4) < 0 := by split_ifs <;> norm_num
    have e500 : (q.diam : ℝ) * 1000 / 2 = q.diam * 500 := by ring
    constructor
    · rintro ⟨x, hx⟩
      obtain ⟨v1, ⟨p, v2, rfl⟩, v3, v4⟩ := (hval x).1 hx
      rw [hthr] at v4
      rcases v4 with v4 | v4
      · exact absurd v4 hk
      rw [t5] at v2
      obtain ⟨pq, w1, w2⟩ := Option.map_eq_some_iff.1 v2
      subst w2
      refine ⟨by rw [← r1, ← t1, htn]; exact v1, pq, w1, ?_⟩
      unfold surfaceDist at v3 v4
      rw [r4, r2, r3, e500] at v3 v4
      exact ⟨v3, v4⟩
    · rintro ⟨v1, pq, w1, v3, v4⟩
      refine ⟨surfaceDist r.rest.crater pq.1 pq.2, (hval _).2 ⟨?_, ⟨((pq.1 : ℝ), (pq.2 : ℝ)), ?_, rfl⟩,
        ?_, Or.inr ?_⟩⟩
      · rw [r1, ← htn, t1]; exact v1
      · rw [t5, w1]; rfl
      · unfold surfaceDist; rw [r4, r2, r3, e500]; exact v3
      · unfold surfaceDist; rw [hthr, r4, r2, r3, e500]; exact v4
  have hok : ∃ dist, coldtrapDist c.ej (df.map (·.rest.crater)) r.rest.crater name = .ok dist := by
    obtain ⟨m, hm⟩ := coldtrapDists_ok hr hgt
    obtain ⟨-, mi⟩ := mapM_ok_inv _ _ _ hm
    obtain ⟨i, hi⟩ := List.mem_iff_getElem?.1 (List.mem_map_of_mem (f := fun r => r.rest.crater) hrm)
    obtain ⟨row, -, hrow⟩ := mi i _ hi
    obtain ⟨-, mj⟩ := mapM_ok_inv _ _ _ hrow
    obtain ⟨j, hj⟩ := List.mem_iff_getElem?.1 hname
    obtain ⟨v, -, hv⟩ := mj j _ hj
    exact ⟨v, hv⟩
  obtain ⟨dist, hdist⟩ := hok
  refine ⟨dist, hdist, ?_, ?_⟩
  · intro hin
    obtain ⟨x, hx⟩ := hiff.2 hin
    rw [hdist] at hx
    injection hx with hx
    subst hx
    obtain ⟨-, -, v3, v4⟩ := (hval x).1 hdist
    refine ⟨x, rfl, v3, ?_⟩
    rw [hthr] at v4
    rcases v4 with v4 | v4
    · exfalso; revert v4; split_ifs <;> norm_num
    · exact v4
  · intro hout
    cases hx : dist with
    | none => rfl
    | some x => exact absurd (hiff.1 ⟨x, by rw [hdist, hx]⟩) hout

/-- C112 applies to every seed of the default configuration. -/
example (seed : Int) := C112_run [] sortDesc id id constGen constGen_lawful sortDesc_spec
  (RunCfg.default seed) (default_physical seed) (default_data _ _ _ _ sortDesc_spec seed)
  (default_runnable _ _ _ _ seed) rfl rfl (fun _ h => h) (constGen.init seed)

theorem file_sizes : (∀ q ∈ craterFile, 18 < q.diam ∧ q.diam < 140) ∧
    ∀ q ∈ basinFile, 280 ≤ q.diam ∧ q.diam ≤ 1400 := by decide +kernel

/-- **C113** with the default scaling, what a row leaves at a cold trap is more than a millimetre
when the table lists it and nothing otherwise. -/
theorem C113_thickness (g : Gen σ) (hg : LawfulGen g) (hs : Spec.SortDesc sortAges) (c : RunCfg)
    (hc : PhysicalCfg c) (hd : PhysicalData c (shippedData nk sortAges sortNk setOrder))
    (hr : Runnable c (shippedData nk sortAges sortNk setOrder)) (he : c.ej = EjCfg.default)
    (hn : ∀ n ∈ c.coldtrap_names, n ∈ (RunCfg.default 1).coldtrap_names) (df : CraterTable) (s0 s : σ)
    (hdf : craterBasinList g c (shippedData nk sortAges sortNk setOrder) s0 =
      .ok (df, s)) :
    ∀ r ∈ df, ∀ name ∈ c.coldtrap_names, ∀ x, RowEjecta c df name r x →
      (InReach r.rest.crater.cname name → 0.001 < x) ∧
      (¬ InReach r.rest.crater.cname name → x = 0) := by
  obtain ⟨df', s', h1, h2⟩ := C112_run nk sortAges sortNk setOrder g hg hs c hc hd hr
    (show c.ej.ej_threshold = 4 by rw [he]; rfl) (show c.ej.basin_ej_threshold = 5 by rw [he]; rfl) hn s0
  rw [hdf] at h1
  injection h1 with h1
  injection h1 with h1 _
  subst h1
  intro r hrm name hname x ⟨dist, hx1, hx2⟩
  obtain ⟨dist', e1, e2, e3⟩ := h2 r hrm name hname
  rw [hx1] at e1
  injection e1 with e1
  subst e1
  obtain ⟨q, r1, r2, r3, r4, r5, r6⟩ :=
    shipped_table_rows nk sortAges sortNk setOrder g hs c df _ _ hdf r hrm
  rw [he] at hx2
  constructor
  · intro hin
    obtain ⟨d, rfl, d1, d2⟩ := e2 hin
    rcases r6 with h | h
    · obtain ⟨k1, k2⟩ := file_sizes.1 q h.1
      have k1' : (18 : ℝ) < q.diam := by exact_mod_cast k1
      have k2' : (q.diam : ℝ) < 140 := by exact_mod_cast k2
      rw [h.2] at d2
      simp only [Bool.false_eq_true, if_false] at d2
      have hr0 : 0 < r.rest.crater.rad := by rw [r4]; linarith
      rw [thick_complex EjCfg.default d _ (by linarith) hr0
        (by rw [r4]; norm_num [EjCfg.default]; linarith)
        (by rw [r4]; norm_num [EjCfg.default]; linarith), Flt.fin.injEq] at hx2
      have hp1 : (1 : ℝ) ≤ r.rest.crater.rad ^ (0.74 : ℝ) :=
        Real.one_le_rpow (by rw [r4]; linarith) (by norm_num)
      have hp2 : (1 / 64 : ℝ) ≤ (d / r.rest.crater.rad) ^ EjCfg.default.ej_thickness_exp := by
        show (1 / 64 : ℝ) ≤ (d / r.rest.crater.rad) ^ (-3 : ℝ)
        have hq0 : 0 < d / r.rest.crater.rad := div_pos (by linarith) hr0
        have hq4 : d / r.rest.crater.rad ≤ 4 := by rw [div_le_iff₀ hr0]; linarith
        rw [rpow_neg hq0.le, show (3 : ℝ) = ((3 : ℕ) : ℝ) by norm_num, rpow_natCast, one_div]
        apply inv_anti₀ (by positivity)
        calc (d / r.rest.crater.rad) ^ 3 ≤ 4 ^ 3 := pow_le_pow_left₀ hq0.le hq4 3
          _ = 64 := by norm_num
      rw [← hx2]
      calc (0.001 : ℝ) < 0.14 * 1 * (1 / 64) := by norm_num
        _ ≤ _ := by gcongr
    · obtain ⟨k1, k2⟩ := file_sizes.2 q h.1
      have k1' : (280 : ℝ) ≤ q.diam := by exact_mod_cast k1
      have k2' : (q.diam : ℝ) ≤ 1400 := by exact_mod_cast k2
      rw [h.2] at d2
      simp only [if_true] at d2
      obtain ⟨t, t1, t2⟩ := basin_thick EjCfg.default d r.rest.crater.rad
        (by norm_num [EjCfg.default]) rfl (by norm_num [EjCfg.default]) rfl rfl
        (by rw [r4]; linarith) (by rw [r4]; linarith) d1 d2
      rw [t1, Flt.fin.injEq] at hx2
      rw [← hx2]; exact t2
  · intro hout
    rw [e3 hout, C36_missing_distance, Flt.fin.injEq] at hx2
    exact hx2.symm

open Classical in
/-- Spec: names, in table order, of the rows dated to time `i` that the table lists for a trap. -/
noncomputable def Spec.ReachSources (tol : ℝ) (time : List ℝ) (df : CraterTable) (trap : String)
    (i : Nat) : List String :=
  (df.filter (fun r => decide (InRange tol time r.age ∧ Nearest time r.age i ∧
    InReach r.rest.crater.cname trap))).map (fun r => r.rest.crater.cname)

open Classical in
theorem reachSources_eq {c : RunCfg} {df : CraterTable} {name : String}
    (hmin : 0 ≤ c.thickness_min) (hmin' : c.thickness_min ≤ 0.001)
    (hall : ∀ r ∈ df, ∀ x, RowEjecta c df name r x →
      (InReach r.rest.crater.cname name → 0.001 < x) ∧
      (¬ InReach r.rest.crater.cname name → x = 0)) (tol : ℝ) (time : List ℝ) (i : Nat) :
    ∀ (l : CraterTable) (th : List ℝ), (∀ r ∈ l, r ∈ df) → List.Forall₂ (RowEjecta c df name) l th →
      Sources tol c.thickness_min time l th i = ReachSources tol time l name i := by
  intro l th hl hf
  induction hf with
  | nil => rfl
  | @cons r x l th h1 _ ih =>
    have ih := ih (fun r hr => hl r (by simp [hr]))
    obtain ⟨a1, a2⟩ := hall r (hl r (by simp)) x h1
    unfold Sources ReachSources at ih ⊢
    have hiff : c.thickness_min < x ↔ InReach r.rest.crater.cname name := by
      constructor
      · intro h; by_contra hn; rw [a2 hn] at h; linarith
      · intro h; have := a1 h; linarith
    rw [List.zip_cons_cons, List.filter_cons, List.filter_cons]
    by_cases hp : InRange tol time r.age ∧ Nearest time r.age i ∧ InReach r.rest.crater.cname name
    · rw [if_pos (decide_eq_true ⟨hp.1, hp.2.1, hiff.2 hp.2.2⟩), if_pos (decide_eq_true hp),
        List.map_cons, List.map_cons, ih]
    · rw [if_neg (by rw [decide_eq_true_eq]; exact fun h => hp ⟨h.1, h.2.1, hiff.1 h.2.2⟩),
        if_neg (by rw [decide_eq_true_eq]; exact hp)]
      exact ih

theorem reach_sum_zero {c : RunCfg} {df : CraterTable} {name : String}
    (hall : ∀ r ∈ df, ∀ x, RowEjecta c df name r x → ¬ InReach r.rest.crater.cname name → x = 0)
    (p : CraterAge ℝ CraterCols × ℝ → Bool) (th : List ℝ)
    (hf : List.Forall₂ (RowEjecta c df name) df th)
    (hno : ∀ q ∈ df.zip th, p q = true → ¬ InReach q.1.rest.crater.cname name) :
    (((df.zip th).filter p).map (·.2)).sum = 0 := by
  apply List.sum_eq_zero
  intro x hx
  obtain ⟨q, hq, rfl⟩ := List.mem_map.1 hx
  obtain ⟨hq1, hq2⟩ := List.mem_filter.1 hq
  have hq1' : (q.1, q.2) ∈ df.zip th := hq1
  exact hall q.1 (List.of_mem_zip hq1').1 q.2
    ((List.forall₂_iff_zip.1 hf).2 hq1') (hno q hq1 hq2)

/-- Thicknesses of rows are unique. -/
theorem rowEjecta_unique {c : RunCfg} {df : CraterTable} {name : String} :
    ∀ {l : CraterTable} {a b : List ℝ}, List.Forall₂ (RowEjecta c df name) l a →
      List.Forall₂ (RowEjecta c df name) l b → a = b := by
  intro l a b ha
  induction ha generalizing b with
  | nil => intro hb; cases hb; rfl
  | cons h1 _ ih =>
    intro hb
    cases hb with
    | cons h2 h3 =>
      obtain ⟨d1, e1, e2⟩ := h1
      obtain ⟨d2, f1, f2⟩ := h2
      rw [e1] at f1
      injection f1 with f1
      rw [f1, f2] at e2
      injection e2 with e2
      rw [ih h3, e2]

theorem joinComma_not_minor (l : List String)
    (h : ∀ n ∈ l, ∃ e ∈ craterReach ++ basinReach, n ∈ e.2) : joinComma l ≠ "Minor source(s)" := by
  match l with
  | [] => decide
  | [a] =>
    intro hc
    have hno : ∀ e ∈ craterReach ++ basinReach, "Minor source(s)" ∉ e.2 := by decide +kernel
    obtain ⟨e, he, hae⟩ := h a (by simp)
    exact hno e he (by rw [← hc]; exact hae)
  | a :: b :: rest =>
    intro hc
    have hm : ',' ∈ (joinComma (a :: b :: rest)).toList := by
      simp [joinComma, String.toList_append]
    rw [hc] at hm
    revert hm
    decide

open Classical in
/-- **C113** every run on the shipped files with the default ejecta scaling, whatever the seed:
a layer of a cold trap is the mark of its formation age, ice under no ejecta at all, or ejecta
named after exactly the craters and basins dated to its time that the table lists for the trap.
No layer is ever named `Minor source(s)`. -/
theorem C113_labels (g : Gen σ) (hg : LawfulGen g) (hs : Spec.SortDesc sortAges) (c : RunCfg)
    (hc : PhysicalCfg c) (hd : PhysicalData c (shippedData nk sortAges sortNk setOrder))
    (hr : Runnable c (shippedData nk sortAges sortNk setOrder)) (he : c.ej = EjCfg.default)
    (hn : ∀ n ∈ c.coldtrap_names, n ∈ (RunCfg.default 1).coldtrap_names)
    (hmin : 0 ≤ c.thickness_min) (hmin' : c.thickness_min ≤ 0.001) :
    ∃ out df s time, runMain g c (shippedData nk sortAges sortNk setOrder) = .ok out ∧
      craterBasinList g c (shippedData nk sortAges sortNk setOrder) (g.init c.seed) = .ok (df, s) ∧
      getTimeArray c.timestart c.timeend c.timestep = .ok time ∧
      ∀ name ∈ c.coldtrap_names, ∃ (ice ej : List ℝ) (table : List (StratRow ℝ)),
        out.ice.get name = .ok ice ∧ out.ej.get name = .ok ej ∧ out.strat.get name = .ok table ∧
        (∀ (i : Nat) y, ej[i]? = some y →
          (0 < y ↔ ReachSources RunCfg.rtol time df name i ≠ []) ∧
          (0 = y ↔ ReachSources RunCfg.rtol time df name i = [])) ∧
        ∀ r ∈ table, r.label ≠ "Minor source(s)" ∧
          ((c.strat_after_age = true ∧ r.label = "Formation age") ∨
          ∃ (i : Nat) (x y : ℝ), time[i]? = some r.time ∧ ice[i]? = some x ∧ ej[i]? = some y ∧
            ((c.thickness_min < y ∧ ReachSources RunCfg.rtol time df name i ≠ [] ∧
              r.label = joinComma (ReachSources RunCfg.rtol time df name i)) ∨
            (y = 0 ∧ c.thickness_min < x ∧ r.label = "Ice"))) := by
  obtain ⟨out, hout⟩ := C72_returns g hg c _ hc hd hr
  have hgood : ∀ r ∈ (shippedData nk sortAges sortNk setOrder).craters ++
      (shippedData nk sortAges sortNk setOrder).basins, GoodName r.cname := by
    intro r hr
    obtain ⟨q, hq, rfl⟩ := shipped_rows _ _ _ _ hr
    exact goodNameB_spec (shipped_good q hq)
  obtain ⟨df, s, time, h1, h2, h3⟩ := C78_run_labels g hg c _ hc hd hr.nodup hgood out hout
  obtain ⟨df', s', time', k1, k2, k3⟩ := C75_run_ejecta g hg c _ hc hd hr.nodup out hout
  rw [h1] at k1
  injection k1 with k1
  injection k1 with k1 _
  subst k1
  rw [h2] at k2
  injection k2 with k2
  subst k2
  refine ⟨out, df, s, time, hout, h1, h2, ?_⟩
  intro name hname
  have hall := fun r hrm => C113_thickness nk sortAges sortNk setOrder g hg hs c hc hd hr he hn df _ s h1
    r hrm name hname
  obtain ⟨ice, ej, table, th, a1, a2, a3, a4, a5⟩ := h3 name hname
  obtain ⟨ej', th', b1, b2, b3, b4⟩ := k3 name hname
  rw [a2] at b1
  injection b1 with b1
  subst b1
  have hth := rowEjecta_unique b3 a4
  subst hth
  have hsrc := reachSources_eq hmin hmin' hall RunCfg.rtol time
  have hsum : ∀ (i : Nat) y, ej[i]? = some y →
      (ReachSources RunCfg.rtol time df name i ≠ [] → 0.001 < y) ∧
      (ReachSources RunCfg.rtol time df name i = [] → y = 0) := by
    intro i y hy
    rw [b4 i y hy]
    constructor
    · intro hne
      obtain ⟨n, hnm⟩ := List.exists_mem_of_ne_nil _ hne
      rw [← hsrc i df _ (fun _ h => h) b3] at hnm
      unfold Sources at hnm
      obtain ⟨q, hq, -⟩ := List.mem_map.1 hnm
      obtain ⟨hq1, hq2⟩ := List.mem_filter.1 hq
      rw [decide_eq_true_eq] at hq2
      have hq1' : (q.1, q.2) ∈ df.zip th' := hq1
      obtain ⟨p1, p2⟩ := hall q.1 (List.of_mem_zip hq1').1 q.2 ((List.forall₂_iff_zip.1 b3).2 hq1')
      have hin : InReach q.1.rest.crater.cname name := by
        by_contra hno
        have := p2 hno
        have := hq2.2.2
        linarith
      refine (p1 hin).trans_le ?_
      apply List.single_le_sum
      · intro z hz
        obtain ⟨w, hw, rfl⟩ := List.mem_map.1 hz
        have hw1 : (w.1, w.2) ∈ df.zip th' := List.mem_of_mem_filter hw
        obtain ⟨m1, m2⟩ := hall w.1 (List.of_mem_zip hw1).1 w.2 ((List.forall₂_iff_zip.1 b3).2 hw1)
        by_cases hin' : InReach w.1.rest.crater.cname name
        · have := m1 hin'; linarith
        · rw [m2 hin']
      · refine List.mem_map.2 ⟨q, List.mem_filter.2 ⟨hq1, ?_⟩, rfl⟩
        rw [decide_eq_true_eq]
        exact ⟨hq2.1, hq2.2.1⟩
    · intro hnil
      refine reach_sum_zero (fun r hrm x hx => (hall r hrm x hx).2) _ th' b3 ?_
      intro q hq hpq hin
      rw [decide_eq_true_eq] at hpq
      unfold ReachSources at hnil
      rw [List.map_eq_nil_iff, List.filter_eq_nil_iff] at hnil
      have hq1' : (q.1, q.2) ∈ df.zip th' := hq
      exact hnil q.1 (List.of_mem_zip hq1').1 (decide_eq_true ⟨hpq.1, hpq.2, hin⟩)
  refine ⟨ice, ej, table, a1, a2, a3, ?_, ?_⟩
  · intro i y hy
    obtain ⟨u1, u2⟩ := hsum i y hy
    by_cases hnil : ReachSources RunCfg.rtol time df name i = []
    · have := u2 hnil
      exact ⟨⟨fun h => by linarith, fun h => absurd hnil h⟩, ⟨fun _ => hnil, fun _ => this.symm⟩⟩
    · have := u1 hnil
      exact ⟨⟨fun _ => hnil, fun _ => by linarith⟩, ⟨fun h => by linarith, fun h => absurd h hnil⟩⟩
  · intro r hrm
    have hmem : ∀ i, ∀ n ∈ ReachSources RunCfg.rtol time df name i, ∃ e ∈ craterReach ++ basinReach,
        n ∈ e.2 := by
      intro i n hnm
      unfold ReachSources at hnm
      obtain ⟨q, hq, rfl⟩ := List.mem_map.1 hnm
      have := (List.mem_filter.1 hq).2
      rw [decide_eq_true_eq] at this
      obtain ⟨e, he1, -, he2⟩ := this.2.2
      exact ⟨e, he1, he2⟩
    have hkey := a5 r hrm
    simp only [hsrc _ df th' (fun _ h => h) b3] at hkey
    rcases hkey with ⟨w1, w2⟩ | ⟨i, x, y, w1, w2, w3, w4⟩
    · exact ⟨by rw [w2]; decide, Or.inl ⟨w1, w2⟩⟩
    · obtain ⟨u1, u2⟩ := hsum i y w3
      rcases w4 with ⟨v1, v2, v3⟩ | ⟨v1, v2, v3⟩ | ⟨v1, v2, v3⟩
      · refine ⟨?_, Or.inr ⟨i, x, y, w1, w2, w3, Or.inl ⟨v1, v2, v3⟩⟩⟩
        rw [v3]
        exact joinComma_not_minor _ (hmem i)
      · exfalso
        have := u2 v2
        linarith
      · refine ⟨by rw [v3]; decide, Or.inr ⟨i, x, y, w1, w2, w3, Or.inr ⟨?_, v2, v3⟩⟩⟩
        by_cases hnil : ReachSources RunCfg.rtol time df name i = []
        · exact u2 hnil
        · have := u1 hnil; linarith

/-- C113 applies to every seed of the default configuration. -/
example (seed : Int) := C113_labels [] sortDesc id id constGen constGen_lawful sortDesc_spec
  (RunCfg.default seed) (default_physical seed) (default_data _ _ _ _ sortDesc_spec seed)
  (default_runnable _ _ _ _ seed) rfl (fun _ h => h) (by norm_num [RunCfg.default])
  (by norm_num [RunCfg.default])

end run

end MoonPIES
