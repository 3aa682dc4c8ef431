import Verif.Props.Main
import Verif.Props.EjectaTime

/-!
# C62, C75: ejecta in complete runs
-/

namespace MoonPIES

open Spec

variable {σ : Type}

/-- Spec: the ejecta thickness a row of the crater table leaves at a cold trap. -/
def RowEjecta (c : RunCfg) (df : CraterTable) (name : String) (r : CraterAge ℝ CraterCols) (x : ℝ) :
    Prop :=
  ∃ dist, coldtrapDist c.ej (df.map (·.rest.crater)) r.rest.crater name = .ok dist ∧
    ejThickness c.ej dist r.rest.crater.rad = .fin x

theorem finiteOf_inv {f : Flt} {x : ℝ} (h : finiteOf f = .ok x) : f = .fin x := by
  cases f with
  | fin y => injection h with h; rw [h]
  | _ => cases h

/-- Thickness of every row at one cold trap. -/
theorem thickness_rows (c : RunCfg) (df : CraterTable) (dists : List (List (Option ℝ)))
    (thick : List (List ℝ))
    (h1 : coldtrapDists c.ej (df.map (·.rest.crater)) c.coldtrap_names = .ok dists)
    (h2 : thicknessMatrix c df dists = .ok thick) (j : Nat) (name : String)
    (hj : c.coldtrap_names[j]? = some name) :
    (∀ row ∈ thick, row.length = c.coldtrap_names.length) ∧
    List.Forall₂ (RowEjecta c df name) df (column thick j) := by
  obtain ⟨l1, i1⟩ := mapM_ok_inv _ _ _ h1
  obtain ⟨l2, i2⟩ := mapM_ok_inv _ _ _ h2
  rw [List.length_map] at l1
  have hzl : (df.zip dists).length = df.length := by rw [List.length_zip, l1, min_self]
  rw [hzl] at l2
  have row : ∀ (k : Nat) r th, df[k]? = some r → thick[k]? = some th →
      th.length = c.coldtrap_names.length ∧ ∃ x, th[j]? = some x ∧ RowEjecta c df name r x := by
    intro k r th hr hth
    obtain ⟨ds, e1, e2⟩ := i1 k r.rest.crater (by rw [List.getElem?_map, hr]; rfl)
    obtain ⟨th', e3, e4⟩ := i2 k (r, ds) (by
      rw [List.getElem?_zip_eq_some]; exact ⟨hr, e1⟩)
    rw [hth] at e3; cases e3
    obtain ⟨l3, i3⟩ := mapM_ok_inv _ _ _ e2
    obtain ⟨l4, i4⟩ := mapM_ok_inv _ _ _ e4
    refine ⟨by rw [l4, ← l3], ?_⟩
    obtain ⟨dist, e5, e6⟩ := i3 j name hj
    obtain ⟨x, e7, e8⟩ := i4 j dist e5
    exact ⟨x, e7, dist, e6, finiteOf_inv e8⟩
  have hlen : ∀ row ∈ thick, row.length = c.coldtrap_names.length := by
    intro th hth
    obtain ⟨k, hk⟩ := List.mem_iff_getElem?.1 hth
    have hkl : k < df.length := by rw [← l2]; exact (List.getElem?_eq_some_iff.1 hk).1
    exact (row k _ th (List.getElem?_eq_getElem hkl) hk).1
  refine ⟨hlen, ?_⟩
  obtain ⟨m1, m2⟩ := column_spec (List.getElem?_eq_some_iff.1 hj).1 thick hlen
  rw [List.forall₂_iff_get]
  refine ⟨by rw [m1, l2], ?_⟩
  intro k h3 h4
  have hkt : k < thick.length := by rw [← m1]; exact h4
  obtain ⟨-, x, hx, hrow⟩ := row k _ _ (List.getElem?_eq_getElem h3) (List.getElem?_eq_getElem hkt)
  have := m2 k _ (List.getElem?_eq_getElem hkt)
  rw [hx, List.getElem?_eq_getElem h4] at this
  cases this
  exact hrow

open Classical in
theorem ejecta_sum (tol tm : ℝ) (time : List ℝ) (df : CraterTable) (th : List ℝ)
    (hl : th.length = df.length) (o : List ℝ × List String)
    (h : ejectaThicknessTime tol tm time (ejRows df th) = .ok o) (i : Nat) (x : ℝ)
    (hx : o.1[i]? = some x) :
    x = (((df.zip th).filter (fun p => decide (InRange tol time p.1.age ∧
      Nearest time p.1.age i))).map (·.2)).sum := by
  have hne := (ejectaThicknessTime_ne h).1
  have hlen := (ejectaThicknessTime_ne h).2.1
  unfold ejectaThicknessTime at h
  obtain ⟨thick, h1, h⟩ := bind_ok_inv h
  obtain ⟨srcs, h2, h⟩ := bind_ok_inv h
  injection h with h
  subst h
  obtain ⟨o1, a1, a2, a3⟩ := ages2time_spec tol time hne
    ((ejRows df th).map (fun r => (r.age, some r.thick))) nansum (0 : ℝ)
  rw [a1] at h1
  injection h1 with h1
  subst h1
  have hi : i < time.length := by rw [← hlen]; exact (List.getElem?_eq_some_iff.1 hx).1
  simp only [a3 i hi] at hx
  cases hx
  rw [foldl_nansum, zero_add]
  unfold itemsAt
  rw [List.filter_map, List.map_map, List.filterMap_map]
  congr 1
  unfold ejRows
  rw [← List.map_uncurry_zip_eq_zipWith, List.filter_map, List.filterMap_map, ← List.filterMap_eq_map]
  rfl

open Classical in
/-- **C75** in every run, whatever `ejecta_basins` says, the ejecta of a cold trap at a time is the
sum, over all craters and basins dated to that time, of the thickness each leaves there. -/
theorem C75_run_ejecta (g : Gen σ) (hg : LawfulGen g) (c : RunCfg) (d : RunData)
    (hc : PhysicalCfg c) (hd : PhysicalData c d) (hnd : c.coldtrap_names.Nodup) (out : CsvOut)
    (hrun : runMain g c d = .ok out) :
    ∃ df s time, craterBasinList g c d (g.init c.seed) = .ok (df, s) ∧
      getTimeArray c.timestart c.timeend c.timestep = .ok time ∧
      ∀ name ∈ c.coldtrap_names, ∃ ej th, out.ej.get name = .ok ej ∧ ej.length = time.length ∧
        List.Forall₂ (RowEjecta c df name) df th ∧
        ∀ (i : Nat) x, ej[i]? = some x →
          x = (((df.zip th).filter (fun p => decide (InRange RunCfg.rtol time p.1.age ∧
            Nearest time p.1.age i))).map (·.2)).sum := by
  unfold runMain at hrun
  obtain ⟨st, hst, hrun⟩ := bind_ok_inv hrun
  obtain ⟨cols, hcols, hrun⟩ := bind_ok_inv hrun
  have hcols := liftPy_ok hcols
  obtain ⟨hne, hfmt⟩ := formatCsv_inv _ _ _ _ _ _ (liftPy_ok hrun)
  obtain ⟨s1, s2, dists, thick, h1, h2, h3, h4, h5, -⟩ := setup_inv g c d st hst
  obtain ⟨ejs, ice, e1, e2, e3⟩ := initStratCols_inv _ _ _ _ _ _ _ _ _ h5
  obtain ⟨b1, -⟩ := buildCols_spec _ _ _ _ _ _ hnd e3
  obtain ⟨cols', hc1, hc2⟩ := run_cols g hg hc hd hnd hne st hst
  rw [hc1] at hcols
  cases hcols
  refine ⟨st.df, s1, st.time, h2, h1, ?_⟩
  intro name hn
  obtain ⟨j, hj⟩ := List.mem_iff_getElem?.1 hn
  obtain ⟨r, hr, hrn', col, table, t1, t2, t3, t4, t5⟩ := hfmt name hn
  obtain ⟨col0, col', k1, k2, k3, k4, k5, k6, k7⟩ := hc2 name hn
  rw [t1] at k2
  cases k2
  obtain ⟨e, f1, f2⟩ := b1 j name hj
  rw [Nat.zero_add] at f1 f2
  rw [k1] at f2
  injection f2 with f2
  obtain ⟨-, q⟩ := thickness_rows c st.df dists thick h3 h4 j name hj
  have hjl : j < c.coldtrap_names.length := (List.getElem?_eq_some_iff.1 hj).1
  obtain ⟨l5, i5⟩ := mapM_ok_inv _ _ _ e1
  obtain ⟨e', f3, f4⟩ := i5 j j (by rw [List.getElem?_range hjl])
  rw [f1] at f3
  cases f3
  refine ⟨col.ej, column thick j, t4, k6, q, ?_⟩
  intro i x hx
  rw [k3, f2] at hx
  exact ejecta_sum _ _ _ _ _ q.length_eq.symm _ f4 i x hx

/-! ## C62 -/

/-- The configuration with `ejecta_basins` set. -/
def RunCfg.withEjectaBasins (c : RunCfg) (b : Bool) : RunCfg := { c with ejecta_basins := b }

theorem stochLoop_ejFlag (g : Gen σ) (c : RunCfg) (b : Bool) (r : String) (diams prob : List ℝ) :
    ∀ (counts : List Int) (s : σ), stochLoop g (c.withEjectaBasins b) r diams prob counts s =
      stochLoop g c r diams prob counts s
  | [], _ => rfl
  | n :: l, s => by
    unfold stochLoop
    simp only [stochLoop_ejFlag g c b r diams prob l]
    rfl

theorem impactIce_ejFlag (g : Gen σ) (c : RunCfg) (b : Bool) (df : CraterTable) (time : List ℝ)
    (s : σ) : impactIce g (c.withEjectaBasins b) df time s = impactIce g c df time s := by
  have h : ∀ r s, iceStochastic g (c.withEjectaBasins b) time r s = iceStochastic g c time r s := by
    intro r s
    unfold iceStochastic
    simp only [stochLoop_ejFlag]
    rfl
  have h' : ∀ s, nonBasinIce g (c.withEjectaBasins b) time s = nonBasinIce g c time s := by
    intro s
    unfold nonBasinIce
    simp only [h]
    rfl
  unfold impactIce
  simp only [h']
  rfl

theorem setup_ejFlag (g : Gen σ) (c : RunCfg) (d : RunData) (b : Bool) :
    setup g (c.withEjectaBasins b) d = setup g c d := by
  have h : ∀ df time s, iceCols g (c.withEjectaBasins b) d df time s = iceCols g c d df time s := by
    intro df time s
    have e : (c.withEjectaBasins b).comet = c.comet.withEjectaBasins b := rfl
    unfold iceCols polarIce impactIceComet
    simp only [e, impactIce_ejFlag]
    rfl
  have h' : ∀ time df thick s, initStratCols g (c.withEjectaBasins b) d time df thick s =
      initStratCols g c d time df thick s := by
    intro time df thick s
    unfold initStratCols
    simp only [h]
    rfl
  unfold setup
  simp only [h']
  rfl

theorem formatLoop_ejFlag (c : RunCfg) (b : Bool) (time : List ℝ) (cols : PyDict (StratCol ℝ)) :
    ∀ ages acc, formatLoop (c.withEjectaBasins b) time cols ages acc = formatLoop c time cols ages acc
  | [], _ => rfl
  | p :: l, acc => by
    unfold formatLoop
    simp only [formatLoop_ejFlag c b time cols l]
    rfl

/-- **C62** the switch has no effect at all: every run is the same with it on and off. -/
theorem C62_flag_ignored (g : Gen σ) (c : RunCfg) (d : RunData) (b : Bool) :
    runMain g (c.withEjectaBasins b) d = runMain g c d := by
  have h : ∀ time df cols, formatCsv (c.withEjectaBasins b) d time df cols =
      formatCsv c d time df cols := by
    intro time df cols
    unfold formatCsv
    simp only [formatLoop_ejFlag]
    rfl
  unfold runMain
  simp only [setup_ejFlag, h]
  rfl

/-- A run with one cold trap at the equator and one basin at the pole. -/
noncomputable def basinRunCfg : RunCfg :=
  { RunCfg.cannon 1 with coldtrap_names := ["A"] }

noncomputable def trapA : RawCrater :=
  { cname := "A", lat := 0, lon := 0, psr := some (0, 0), diam := 20, age := 4, age_low := 0.02,
    age_upp := 0.02 }

noncomputable def basinB : RawCrater :=
  { cname := "B", lat := -90, lon := 0, psr := none, diam := 1200, age := 3.9, age_low := 0.02,
    age_upp := 0.02 }

noncomputable def basinRunData : RunData :=
  { shippedData [] sortDesc id id with craters := [trapA], basins := [basinB] }

theorem basinRun_physical : PhysicalCfg basinRunCfg := { cannon_physical 1 with }

theorem basinRun_data : PhysicalData basinRunCfg basinRunData :=
  { cannon_data [] sortDesc id id sortDesc_spec 1 with
    hops := by intro h; cases h
    basins := by
      intro r hr
      simp only [basinRunData, List.mem_singleton] at hr
      subst hr
      norm_num [basinB] }

theorem basinB_dist : listedDist basinB (0, 0) = 1737400 * (Real.pi / 2) := by
  have := pole_equator
  unfold surfaceDist at this
  unfold listedDist
  exact this

theorem basinRun_runnable : Runnable basinRunCfg basinRunData where
  names := by simp [basinRunCfg]
  nodup := by simp [basinRunCfg]
  start := (cannon_runnable [] sortDesc id id 1).start
  span := (cannon_runnable [] sortDesc id id 1).span
  bars := by
    intro r hr
    simp only [basinRunData, List.singleton_append, List.mem_cons, List.not_mem_nil,
      or_false] at hr
    rcases hr with rfl | rfl <;> norm_num [trapA, basinB]
  diam := by
    intro r hr
    simp only [basinRunData, List.singleton_append, List.mem_cons, List.not_mem_nil,
      or_false] at hr
    rcases hr with rfl | rfl <;> norm_num [trapA, basinB]
  once := by
    intro n hn
    simp only [basinRunCfg, List.mem_singleton] at hn
    subst hn
    simp [basinRunData, trapA, basinB]
  old := by
    intro r hr _
    have ht : basinRunCfg.timestep = 10e6 := rfl
    simp only [basinRunData, List.singleton_append, List.mem_cons, List.not_mem_nil,
      or_false] at hr
    rw [ht]
    rcases hr with rfl | rfl <;> norm_num [trapA, basinB]
  s2c := (cannon_runnable [] sortDesc id id 1).s2c
  c2pr := (cannon_runnable [] sortDesc id id 1).c2pr
  angle90 := (cannon_runnable [] sortDesc id id 1).angle90
  peak := by
    intro r hr hbig
    have hp := Real.pi_pos
    have h1 : basinRunCfg.complex2peakring = 1.4e5 := rfl
    have h2 : basinRunCfg.rad_moon = 1737.4e3 := rfl
    simp only [basinRunData, List.singleton_append, List.mem_cons, List.not_mem_nil,
      or_false] at hr
    rw [h1] at hbig
    rcases hr with rfl | rfl
    · norm_num [trapA] at hbig
    · refine ⟨by rw [h2]; norm_num [basinB], ?_⟩
      intro t ht htn p hp'
      simp only [basinRunData, List.singleton_append, List.mem_cons, List.not_mem_nil,
        or_false] at ht
      rcases ht with rfl | rfl
      · simp only [trapA, Option.some.injEq] at hp'
        subst hp'
        rw [basinB_dist, h2]
        norm_num
        linarith
      · simp [basinB] at hp'
  covers := by intro h; cases h

theorem basinRun_rows (df : CraterTable) (s : Unit)
    (h : craterBasinList constGen basinRunCfg basinRunData () = .ok (df, s)) :
    ∀ r ∈ df, r.rest.crater = (readRow false "no" trapA).rest.crater ∨
      r.rest.crater = (readRow true "no" basinB).rest.crater := by
  obtain ⟨z, mid, h1, rfl⟩ := craterBasinList_inv _ _ _ _ _ _ h
  intro r hr
  have hm : r ∈ mid := (sortDesc_spec mid).1.mem_iff.1 hr
  have hrest : r.rest ∈ (rawTable constGen basinRunCfg basinRunData ()).map (·.rest) := by
    rw [← newAges_rest _ _ _ _ _ h1]; exact List.mem_map_of_mem hm
  obtain ⟨q, hq, e⟩ := List.mem_map.1 hrest
  rw [← e]
  unfold rawTable at hq
  rcases List.mem_append.1 hq with hq | hq
  · obtain ⟨raw, hraw, rfl⟩ := List.mem_map.1 hq
    simp only [basinRunData, List.mem_singleton] at hraw
    subst hraw
    exact Or.inl rfl
  · rw [← List.map_uncurry_zip_eq_zipWith] at hq
    obtain ⟨p, hp, rfl⟩ := List.mem_map.1 hq
    have hraw := (List.of_mem_zip hp).1
    simp only [basinRunData, List.mem_singleton] at hraw
    simp only [Function.uncurry]
    rw [hraw]
    exact Or.inr rfl

open Classical in
/-- **C62 refuted**: with `ejecta_basins` off, the ejecta of a trap is not the sum over the craters
that are not basins. -/
theorem C62_refuted :
    ¬ ∀ (σ : Type) (g : Gen σ) (c : RunCfg) (d : RunData) (out : CsvOut) (df : CraterTable) (s : σ)
      (time : List ℝ), LawfulGen g → PhysicalCfg c → PhysicalData c d → Runnable c d →
      c.ejecta_basins = false → runMain g c d = .ok out →
      craterBasinList g c d (g.init c.seed) = .ok (df, s) →
      getTimeArray c.timestart c.timeend c.timestep = .ok time →
      ∀ name ∈ c.coldtrap_names, ∀ ej th, out.ej.get name = .ok ej →
        List.Forall₂ (RowEjecta c df name) df th →
        ∀ (i : Nat) x, ej[i]? = some x →
          x = (((df.zip th).filter (fun p => decide (p.1.rest.crater.isbasin = false ∧
            InRange RunCfg.rtol time p.1.age ∧ Nearest time p.1.age i))).map (·.2)).sum := by
  intro hall
  obtain ⟨out, hout⟩ := C72_returns constGen constGen_lawful _ _ basinRun_physical basinRun_data
    basinRun_runnable
  obtain ⟨df, s, time, h1, h2, h3⟩ := C75_run_ejecta constGen constGen_lawful _ _ basinRun_physical
    basinRun_data basinRun_runnable.nodup out hout
  obtain ⟨ej, th, h4, h5, h6, h7⟩ := h3 "A" (by simp [basinRunCfg])
  have h8 := hall Unit constGen _ _ out df s time constGen_lawful basinRun_physical basinRun_data
    basinRun_runnable rfl hout h1 h2 "A" (by simp [basinRunCfg]) ej th h4 h6
  have hrows := basinRun_rows df s h1
  obtain ⟨df', s', g1, g2, g3⟩ := craterBasinList_ok constGen constGen_lawful basinRun_physical
    basinRun_data basinRun_runnable (constGen.init basinRunCfg.seed)
  rw [h1] at g1
  cases g1
  have hgt : GoodTable basinRunCfg basinRunData df := ⟨g2, g3⟩
  obtain ⟨t, ht⟩ := goodTable_once basinRun_runnable hgt "A" (by simp [basinRunCfg])
  -- values of the rows
  have hval : ∀ p ∈ df.zip th, (p.1.rest.crater.isbasin = false ∧ p.2 = 0) ∨
      (p.1.rest.crater.isbasin = true ∧ 0 < p.2) := by
    intro p hp
    obtain ⟨i, e1, e2⟩ := mem_zip_get.1 (show (p.1, p.2) ∈ df.zip th from hp)
    have hil := (List.getElem?_eq_some_iff.1 e1).1
    have hil' := (List.getElem?_eq_some_iff.1 e2).1
    have hre := (List.forall₂_iff_get.1 h6).2 i hil hil'
    have q1 : df.get ⟨i, hil⟩ = p.1 := (List.getElem?_eq_some_iff.1 e1).2
    have q2 : th.get ⟨i, hil'⟩ = p.2 := (List.getElem?_eq_some_iff.1 e2).2
    rw [q1, q2] at hre
    obtain ⟨dist, d1, d2⟩ := hre
    rcases hrows p.1 (List.mem_of_getElem? e1) with hA | hB
    · refine Or.inl ⟨by rw [hA]; rfl, ?_⟩
      rw [hA] at d1 d2
      have : dist = none := by
        unfold coldtrapDist at d1
        simp [readRow, trapA] at d1
        exact d1.symm
      rw [this, C36_missing_distance, Flt.fin.injEq] at d2
      exact d2.symm
    · refine Or.inr ⟨by rw [hB]; rfl, ?_⟩
      have hrad : p.1.rest.crater.rad = 600000 := by rw [hB]; norm_num [readRow, basinB]
      have hsurf : surfaceDist p.1.rest.crater 0 0 = 1737400 * (Real.pi / 2) := by
        rw [hB, ← basinB_dist]; rfl
      have htp : t.psr = some (0, 0) := by
        have : t ∈ (df.map (·.rest.crater)).filter (fun c => decide (c.cname = "A")) := by
          rw [ht]; simp
        obtain ⟨m1, m2⟩ := List.mem_filter.1 this
        obtain ⟨r, hr, rfl⟩ := List.mem_map.1 m1
        rcases hrows r hr with h | h
        · rw [h]; rfl
        · rw [h] at m2; simp [readRow, basinB] at m2
      have hpi := Real.pi_gt_three
      have hpi' := Real.pi_lt_d2
      have hd := (coldtrapDist_eq basinRunCfg.ej (df.map (·.rest.crater)) p.1.rest.crater t "A" ht
        (by rw [hrad]; norm_num) (1737400 * (Real.pi / 2))).2
        ⟨by rw [hB]; simp [readRow, basinB], ⟨(0, 0), htp, hsurf.symm⟩, by rw [hrad]; linarith,
          Or.inr (by
            have : thresholdOf basinRunCfg.ej p.1.rest.crater = 5 := by
              rw [hB]; rfl
            rw [this, hrad]; linarith)⟩
      rw [hd] at d1
      injection d1 with d1
      rw [← d1, hrad] at d2
      have hlt := (C38_transient_default (600000 * 2) (by norm_num)).2.1
      obtain ⟨v, v1, v2⟩ := C36_basin_positive_partial basinRunCfg.ej (1737400 * (Real.pi / 2)) 600000
        (final2transient 18e3 1.4e5 (600000 * 2) / 2) (by norm_num)
        (by show (1.4e5 : ℝ) / 2 ≤ 600000; norm_num) rfl
        (by show _ ≤ (1737.4e3 : ℝ); norm_num at hlt ⊢; linarith)
        (by show (0 : ℝ) < 1.62; norm_num) (by show (0 : ℝ) < 45; norm_num)
        (by show (45 : ℝ) < 90; norm_num) (by linarith)
        (by show _ < Real.pi * (1737.4e3 : ℝ); norm_num; linarith) (by linarith)
      rw [v1, Flt.fin.injEq] at d2
      rw [← d2]; exact v2
  -- a row of the basin
  obtain ⟨r, hr, hrn⟩ : ∃ r ∈ df, r.rest.crater.cname = "B" := by
    have : "B" ∈ df.map (fun r => r.rest.crater.cname) := by
      rw [g2.mem_iff]; simp [basinRunData, basinB]
    obtain ⟨r, hr, e⟩ := List.mem_map.1 this
    exact ⟨r, hr, e⟩
  obtain ⟨k, hk⟩ := List.mem_iff_getElem?.1 hr
  have hkl : k < th.length := by
    rw [← h6.length_eq]; exact (List.getElem?_eq_some_iff.1 hk).1
  have hmem : (r, th[k]) ∈ df.zip th := mem_zip_get.2 ⟨k, hk, List.getElem?_eq_getElem hkl⟩
  -- its age
  obtain ⟨raw, w1, b, icy, w2, w3, w4, w5, w6, n, w7⟩ := g3 r hr
  have hraw : raw = basinB := by
    simp only [basinRunData, List.singleton_append, List.mem_cons, List.not_mem_nil,
      or_false] at w1
    rcases w1 with rfl | rfl
    · rw [w4] at hrn; simp [readRow, trapA] at hrn
    · rfl
  have hts : basinRunCfg.timestep = 10e6 := rfl
  have htst : basinRunCfg.timestart = 4.25e9 := rfl
  rw [hraw, hts] at w5 w6
  norm_num [readRow, basinB] at w5 w6
  obtain ⟨time', y1, y2, y3⟩ := timeArray_last basinRun_physical basinRun_runnable
  rw [h2] at y1
  cases y1
  obtain ⟨time', z1, z2, z3, z4, z5⟩ := C19_shape_partial basinRunCfg.timestart basinRunCfg.timeend
    basinRunCfg.timestep basinRun_physical.ts basinRun_runnable.start
    (by have := basinRun_runnable.span; have := basinRun_physical.ts; linarith)
  rw [h2] at z1
  cases z1
  have htop : basinRunCfg.timestart ∈ time := List.mem_of_mem_head? z3
  have hin : InRange RunCfg.rtol time r.age := by
    have hrt : 0 < RunCfg.rtol := by unfold RunCfg.rtol; norm_num
    refine ⟨⟨_, y3, fun t ht => (z5 t ht).1, ?_⟩, ⟨_, htop, fun t ht => (z5 t ht).2, ?_⟩⟩
    · rw [hts]
      have := mul_nonneg (abs_nonneg (10e6 : ℝ)) hrt.le
      norm_num at this ⊢
      linarith
    · rw [htst]
      have := mul_nonneg (abs_nonneg (4.25e9 : ℝ)) hrt.le
      norm_num at this ⊢
      linarith
  obtain ⟨i, hi, hnear⟩ := exists_nearest y2 r.age
  have hx := List.getElem?_eq_getElem (show i < ej.length by rw [h5]; exact hi)
  have s1 := h7 i _ hx
  have s2 := h8 i _ hx
  -- without basins nothing is left
  have s3 : (((df.zip th).filter (fun p => decide (p.1.rest.crater.isbasin = false ∧
      InRange RunCfg.rtol time p.1.age ∧ Nearest time p.1.age i))).map (·.2)).sum = 0 := by
    apply List.sum_eq_zero
    intro x hx
    obtain ⟨p, hp, rfl⟩ := List.mem_map.1 hx
    obtain ⟨hp1, hp2⟩ := List.mem_filter.1 hp
    simp only [decide_eq_true_eq] at hp2
    rcases hval p hp1 with h | h
    · exact h.2
    · rw [h.1] at hp2; exact absurd hp2.1 (by simp)
  have hbpos : 0 < th[k] := by
    rcases hval _ hmem with h | h
    · exfalso
      rcases hrows r hr with h' | h'
      · rw [h'] at hrn; simp [readRow, trapA] at hrn
      · rw [h'] at h; simp [readRow] at h
    · exact h.2
  have s4 : th[k] ≤ (((df.zip th).filter (fun p => decide (InRange RunCfg.rtol time p.1.age ∧
      Nearest time p.1.age i))).map (·.2)).sum := by
    apply List.single_le_sum
    · intro y hy
      obtain ⟨p, hp, rfl⟩ := List.mem_map.1 hy
      rcases hval p (List.mem_of_mem_filter hp) with h | h
      · exact h.2.ge
      · exact h.2.le
    · exact List.mem_map.2 ⟨_, List.mem_filter.2 ⟨hmem, by simpa using ⟨hin, hnear⟩⟩, rfl⟩
  rw [s3] at s2
  rw [← s1] at s4
  linarith

end MoonPIES
