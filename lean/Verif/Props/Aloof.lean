import Verif.Lemmas.AloofRun
import Verif.Props.Reach

/-!
# C139: craters that reach no cold trap
-/

namespace MoonPIES

open Spec

variable {σ : Type}

/-- **C139** a run dates the craters, and `runFrom` is what it then does with them. -/
theorem C139_run_from (g : Gen σ) (c : RunCfg) (d : RunData) : runMain g c d = (do
    let time ← liftPy (getTimeArray c.timestart c.timeend c.timestep)
    let p ← liftPy (craterBasinList g c d (g.init c.seed))
    runFrom g c d time p.1 p.2) := by
  unfold runMain setup runFrom
  simp only [bind_assoc]
  rfl

/-- **C139** a crater or basin that reaches no cold trap and brings no ice may be left out of the dated table:
the results, and the errors, are the same.  Missing from the full statement: its ejecta must be as warm as those
of another row, or as a column of the melt table (`C139_warmth_refuted`). -/
theorem C139_no_trace_partial (g : Gen σ) (c : RunCfg) (d : RunData) (time : List ℝ) (before after : CraterTable)
    (s : σ) (r : CraterAge ℝ CraterCols) (hr : ReachesNone c (before ++ after) r) (hi : BringsNoIce r)
    (hu : ∀ t ∈ c.coldtrap_names, ((before ++ after).filter (fun q => decide (q.rest.crater.cname = t))).length ≤ 1)
    (hm : 0 ≤ c.thickness_min) (hT : c.ballistic_sed = false ∨ FamiliarTemp c d.melt (before ++ after) r) :
    runFrom g c d time (before ++ r :: after) s = runFrom g c d time (before ++ after) s := by
  have := runFrom_skip g c d time (before ++ after) s r before.length (by simp) hr hi hu hm hT
  have e : (before ++ after).insertIdx before.length r = before ++ r :: after := by
    clear this hT hu hr
    induction before with
    | nil => simp
    | cons b before ih => simp [ih]
  rwa [e] at this

/-- **C139** a crater that is not a basin leaves no trace beside another crater that is not one. -/
theorem C139_crater (g : Gen σ) (c : RunCfg) (d : RunData) (time : List ℝ) (before after : CraterTable)
    (s : σ) (r : CraterAge ℝ CraterCols) (hr : ReachesNone c (before ++ after) r)
    (hb : r.rest.crater.isbasin = false) (ho : ∃ q ∈ before ++ after, q.rest.crater.isbasin = false)
    (hu : ∀ t ∈ c.coldtrap_names, ((before ++ after).filter (fun q => decide (q.rest.crater.cname = t))).length ≤ 1)
    (hm : 0 ≤ c.thickness_min) :
    runFrom g c d time (before ++ r :: after) s = runFrom g c d time (before ++ after) s := by
  refine C139_no_trace_partial g c d time before after s r hr ?_ hu hm (.inr (.inl ?_))
  · intro h; rw [hb] at h; cases h
  · obtain ⟨q, hq, hq'⟩ := ho
    exact ⟨q, hq, by rw [hq', hb]⟩

/-- C139 applies: a crater of a kilometre at the pole does not reach a cold trap at the equator. -/
example (g : Gen σ) (c : RunCfg) (d : RunData) (time : List ℝ) (s : σ) (hn : c.coldtrap_names = ["B"])
    (h4 : c.ej_threshold = 4) (hm : c.thickness_min = 0.001) :
    runFrom g c d time ([] ++ ⟨3, 0, 0, ⟨poleCrater, ""⟩⟩ :: [⟨4, 0, 0, ⟨equatorTrap, ""⟩⟩]) s =
      runFrom g c d time ([] ++ [⟨4, 0, 0, ⟨equatorTrap, ""⟩⟩]) s := by
  refine C139_crater g c d time [] _ s _ ⟨by simp [hn, poleCrater], ?_⟩ rfl
    ⟨_, List.mem_singleton.2 rfl, rfl⟩ ?_ (by rw [hm]; norm_num)
  · intro t ht _ p hp
    simp only [List.nil_append, List.mem_singleton] at ht
    subst ht
    have : p = (0, 0) := by
      injection hp with hp
      exact hp.symm
    subst this
    right
    rw [pole_equator]
    have ht : thresholdOf c.ej poleCrater = 4 := h4
    have : (3 : ℝ) < Real.pi := Real.pi_gt_three
    rw [ht]
    refine ⟨by norm_num, ?_⟩
    norm_num [poleCrater]; linarith
  · intro t ht
    exact le_trans (List.length_filter_le _ _) (by simp)

theorem Spec.ReachesNone.mono {c : RunCfg} {df df' : CraterTable} {r : CraterAge ℝ CraterCols} (h : ReachesNone c df r)
    (hs : ∀ t ∈ df', t ∈ df) : ReachesNone c df' r :=
  ⟨h.notTrap, fun t ht => h.far t (hs t ht)⟩

/-- **C139** with the temperatures of the ejecta in the melt table, all such craters and basins may be left out
together. -/
theorem C139_all (g : Gen σ) (c : RunCfg) (d : RunData) (time : List ℝ) (s : σ) (keep : CraterAge ℝ CraterCols → Bool)
    (hm : 0 ≤ c.thickness_min) (hT : c.ballistic_sed = false ∨ ∀ b, ejTemp c b ∈ d.melt.temps) (df : CraterTable)
    (hu : ∀ t ∈ c.coldtrap_names, (df.filter (fun q => decide (q.rest.crater.cname = t))).length ≤ 1)
    (h : ∀ r ∈ df, keep r = false → ReachesNone c df r ∧ BringsNoIce r) :
    runFrom g c d time (df.filter keep) s = runFrom g c d time df s := by
  suffices H : ∀ b a : CraterTable, (∀ r ∈ a ++ b, r ∈ df) →
      (∀ t ∈ c.coldtrap_names, ((a ++ b).filter (fun q => decide (q.rest.crater.cname = t))).length ≤ 1) →
      runFrom g c d time (a ++ b.filter keep) s = runFrom g c d time (a ++ b) s from
    H df [] (fun _ h => h) hu
  intro b
  induction b with
  | nil => intro a _ _; rfl
  | cons r b ih =>
    intro a hs hu
    cases hk : keep r with
    | true =>
      rw [List.filter_cons_of_pos hk]
      have := ih (a ++ [r]) (by simpa using hs) (by simpa using hu)
      simpa using this
    | false =>
      rw [List.filter_cons_of_neg (by simp [hk])]
      have hsub : (a ++ b).Sublist (a ++ r :: b) := List.Sublist.append_left (List.sublist_cons_self r b) a
      have hu' : ∀ t ∈ c.coldtrap_names,
          ((a ++ b).filter (fun q => decide (q.rest.crater.cname = t))).length ≤ 1 := fun t ht =>
        le_trans (hsub.filter _).length_le (hu t ht)
      have hs' : ∀ t ∈ a ++ b, t ∈ df := fun t ht => hs t (hsub.subset ht)
      obtain ⟨h1, h2⟩ := h r (hs r (by simp)) hk
      rw [ih a hs' hu', C139_no_trace_partial g c d time a b s r (h1.mono hs') h2 hu' hm
        (hT.imp_right fun h => .inr (h _))]

/-- The melt fraction of a crater whose ejecta are at 140 K, between columns at 100 K and 200 K: a half, and a
third once a basin with ejecta at 160 K is listed which reaches nothing. -/
def twoTemps : MeltTable ℚ := { temps := [100, 200], rows := [(0, [0, 1]), (1, [0, 1])] }

/-- Polar ejecta at 140 K and basin ejecta at 160 K. -/
def twoWarm : BsedCfg ℚ :=
  { ballistic_sed := true, ballistic_sed_frac_lost := 1, polar_ejecta_temp_init := 140, basin_ejecta_temp_warm := true,
    basin_ejecta_temp_init_warm := 160, basin_ejecta_temp_init_cold := 160, rtol := 1 / 1000000 }

/-- **C139** a basin that reaches no cold trap does change the fraction of ice lost there to another crater, if
no other row and no column of the melt table is as warm. -/
theorem C139_warmth_refuted :
    bsedDepth twoWarm twoTemps id [30, 20, 10] [20] [false] [([some 1], [5])] = .ok [([0, 5, 0], [0, 1 / 2, 0])] ∧
    bsedDepth twoWarm twoTemps id [30, 20, 10] [20, 30] [false, true] [([some 1, none], [5, 0])] =
      .ok [([0, 5, 0], [0, 1 / 3, 0])] := by
  decide +kernel

section shipped

variable (nk : List (ℝ × ℝ)) (sortAges : CraterTable → CraterTable)
  (sortNk : List (ℝ × ℝ) → List (ℝ × ℝ)) (setOrder : List (List Char) → List (List Char))

open Classical in
/-- **C139** a run on the shipped files with the default thresholds and temperatures is what it makes of the dated
craters and basins that reach a listed cold trap, or are one, or bring ice. -/
theorem C139_shipped (g : Gen σ) (hg : LawfulGen g) (hs : Spec.SortDesc sortAges) (c : RunCfg)
    (hc : PhysicalCfg c) (hd : PhysicalData c (shippedData nk sortAges sortNk setOrder))
    (hr : Runnable c (shippedData nk sortAges sortNk setOrder))
    (h4 : c.ej_threshold = 4) (h5 : c.basin_ej_threshold = 5)
    (hn : ∀ n ∈ c.coldtrap_names, n ∈ (RunCfg.default 1).coldtrap_names) (hm : 0 ≤ c.thickness_min)
    (t1 : c.polar_ejecta_temp_init = 140) (t2 : c.basin_ejecta_temp_init_warm = 420)
    (t3 : c.basin_ejecta_temp_init_cold = 260) :
    runMain g c (shippedData nk sortAges sortNk setOrder) = (do
      let time ← liftPy (getTimeArray c.timestart c.timeend c.timestep)
      let p ← liftPy (craterBasinList g c (shippedData nk sortAges sortNk setOrder) (g.init c.seed))
      runFrom g c (shippedData nk sortAges sortNk setOrder) time (p.1.filter (fun r => decide (Matters c r))) p.2) := by
  rw [C139_run_from]
  obtain ⟨df, s, hdf, hdist⟩ := C112_run nk sortAges sortNk setOrder g hg hs c hc hd hr h4 h5 hn (g.init c.seed)
  obtain ⟨df', s', hdf', p1, p2⟩ := craterBasinList_ok g hg hc hd hr (g.init c.seed)
  obtain ⟨rfl, rfl⟩ : df = df' ∧ s = s' := by
    rw [hdf] at hdf'
    injection hdf' with e
    exact Prod.mk.inj e
  have hgt : GoodTable c _ df := ⟨p1, p2⟩
  rw [hdf]
  cases getTimeArray c.timestart c.timeend c.timestep with
  | error e => rfl
  | ok time =>
    simp only [liftPy, bind, Except.bind]
    have hpos : ∀ r ∈ df, 0 < r.rest.crater.rad := by
      intro r hrm
      obtain ⟨q, -, -, -, r4, -, r6⟩ := shipped_table_rows nk sortAges sortNk setOrder g hs c df _ _ hdf r hrm
      have : q ∈ craterFile ++ basinFile := by
        rcases r6 with h | h
        · exact List.mem_append_left _ h.1
        · exact List.mem_append_right _ h.1
      have : (0 : ℝ) < q.diam := by exact_mod_cast (file_bars q this).2.2.2.1
      rw [r4]; positivity
    refine (C139_all g c _ time s _ hm (.inr ?_) df ?_ ?_).symm
    · have hmem : ∀ k ∈ ([140, 260, 420] : List Nat), (k : ℝ) ∈ (shippedData nk sortAges sortNk setOrder).melt.temps := by
        intro k hk
        have : ∀ k ∈ [140, 260, 420], k ∈ meltTemps := by decide +kernel
        exact List.mem_map.2 ⟨k, this k hk, rfl⟩
      intro b
      unfold ejTemp
      rw [t1, t2, t3]
      have e1 := hmem 140 (by simp)
      have e2 := hmem 260 (by simp)
      have e3 := hmem 420 (by simp)
      push_cast at e1 e2 e3
      split_ifs <;> assumption
    · intro t ht
      obtain ⟨u, hu⟩ := goodTable_once hr hgt t ht
      rw [List.filter_map] at hu
      have := congrArg List.length hu
      rw [List.length_map] at this
      exact le_of_eq this
    · intro r hrm hk
      replace hk := of_decide_eq_false hk
      simp only [Matters, not_or, not_not] at hk
      refine ⟨⟨hk.1, ?_⟩, hk.2.2⟩
      intro t ht htn p hp
      obtain ⟨dist, hd1, -, hd2⟩ := hdist r hrm _ htn
      rw [hd2 fun h => hk.2.1 ⟨_, htn, h⟩] at hd1
      obtain ⟨u, hu⟩ := goodTable_once hr hgt _ htn
      have hut : t.rest.crater = u := by
        have : t.rest.crater ∈ (df.map (·.rest.crater)).filter (fun q => decide (q.cname = t.rest.crater.cname)) := by
          simp only [List.mem_filter, List.mem_map, decide_true, and_true]
          exact ⟨t, ht, rfl⟩
        rw [hu] at this
        simpa using this
      by_contra hcon
      push Not at hcon
      have := (coldtrapDist_eq c.ej _ r.rest.crater u _ hu (hpos r hrm) (surfaceDist r.rest.crater p.1 p.2)).2
        ⟨fun e => hk.1 (e ▸ htn), ⟨p, hut ▸ hp, rfl⟩, hcon.1, by
          by_cases h0 : 0 ≤ thresholdOf c.ej r.rest.crater
          · exact .inr (hcon.2 h0)
          · exact .inl (not_le.1 h0)⟩
      rw [hd1] at this
      cases this

end shipped

/-- C139 applies to every seed of the default configuration. -/
example (seed : Int) := C139_shipped [] sortDesc id id constGen constGen_lawful sortDesc_spec
  (RunCfg.default seed) (default_physical seed) (default_data _ _ _ _ sortDesc_spec seed)
  (default_runnable _ _ _ _ seed) rfl rfl (fun _ h => h) (by norm_num [RunCfg.default]) rfl rfl rfl

/-- **C139** of the shipped craters and basins, these reach no cold trap of the default configuration and are none
themselves. -/
theorem C139_idle :
    (craterFile.filter (fun q => decide (q.cname ∉ craterReach.map (·.1) ∧
      ¬ ∃ e ∈ craterReach ++ basinReach, q.cname ∈ e.2))).map (·.cname) =
      ["Scott E", "Wiechert P", "Unnamed 2", "Unnamed 3", "Wiechert U", "Amundsen C"] ∧
    (basinFile.filter (fun q => decide (¬ ∃ e ∈ craterReach ++ basinReach, q.cname ∈ e.2))).length = 20 ∧
    basinFile.length = 27 := by
  decide +kernel

end MoonPIES
