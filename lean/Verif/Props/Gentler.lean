import Verif.Lemmas.Gentler
import Verif.Lemmas.MainTotal

/-!
# C115: options that only add ice or only remove it

Runs with the same seed whose options differ only in what they supply and lose.
-/

namespace MoonPIES

open Spec

variable {σ : Type}

theorem gentler_runnable {c c' : RunCfg} {d : RunData} (h : Gentler c c') (hr : Runnable c d) :
    Runnable c' d := by
  have hs := h.sed
  rw [h.same]
  exact {
    names := hr.names, nodup := hr.nodup, start := hr.start, span := hr.span, bars := hr.bars
    diam := hr.diam, once := hr.once, old := hr.old, s2c := hr.s2c, c2pr := hr.c2pr
    angle90 := hr.angle90, peak := hr.peak, covers := fun hb => by
      obtain ⟨k1, k2, k3, k4⟩ := hr.covers (hs hb)
      refine ⟨k1, k2, k3, fun dist m h1 h2 h3 b t ht => ?_⟩
      cases ht with
      | crater => exact k4 dist m h1 h2 h3 _ _ .crater
      | warm hw => exact k4 dist m h1 h2 h3 _ _ (.warm hw)
      | cold hw => exact k4 dist m h1 h2 h3 _ _ (.cold hw) }

/-- **C115** A run whose options supply at least as much ice and lose it no faster, with the same
seed, has in every cold trap the same ejecta and at least as much ice in every layer. -/
theorem C115_gentler (g : Gen σ) (hg : LawfulGen g) (c c' : RunCfg) (d : RunData)
    (hc : PhysicalCfg c) (hd : PhysicalData c d) (hl : Lunar c d) (hd' : PhysicalData c' d)
    (hnd : c.coldtrap_names.Nodup) (h : Gentler c c') (out out' : CsvOut)
    (hrun : runMain g c d = .ok out) (hrun' : runMain g c' d = .ok out') :
    ∀ name ∈ c.coldtrap_names, ∃ ice ice' ej, out.ice.get name = .ok ice ∧
      out'.ice.get name = .ok ice' ∧ out.ej.get name = .ok ej ∧ out'.ej.get name = .ok ej ∧
      List.Forall₂ (· ≤ ·) ice ice' ∧ ice.sum ≤ ice'.sum := by
  have hc' := gentler_physical h hc
  have hn : c'.coldtrap_names = c.coldtrap_names := by rw [h.same]; rfl
  unfold runMain at hrun hrun'
  obtain ⟨st, hst, hrun⟩ := bind_ok_inv hrun
  obtain ⟨cols, hcols, hrun⟩ := bind_ok_inv hrun
  obtain ⟨st', hst', hrun'⟩ := bind_ok_inv hrun'
  obtain ⟨cols', hcols', hrun'⟩ := bind_ok_inv hrun'
  have hcols := liftPy_ok hcols
  have hcols' := liftPy_ok hcols'
  obtain ⟨hne, hfmt⟩ := formatCsv_inv _ _ _ _ _ _ (liftPy_ok hrun)
  obtain ⟨-, hfmt'⟩ := formatCsv_inv _ _ _ _ _ _ (liftPy_ok hrun')
  obtain ⟨s1, s2, dists, thick, a1, a2, a3, a4, a5, a6, a7⟩ := setup_inv g c d st hst
  obtain ⟨s1', s2', dists', thick', b1, b2, b3, b4, b5, b6, b7⟩ := setup_inv g c' d st' hst'
  -- the same times, craters and ejecta
  have t1 : getTimeArray c'.timestart c'.timeend c'.timestep =
      getTimeArray c.timestart c.timeend c.timestep := by rw [h.same]; rfl
  rw [t1, a1] at b1
  injection b1 with ht
  have t2 : craterBasinList g c' d (g.init c'.seed) = craterBasinList g c d (g.init c.seed) := by
    rw [h.same]; rfl
  rw [t2, a2] at b2
  injection b2 with b2
  injection b2 with hdf hs1
  have t3 : c'.ej = c.ej := by rw [h.same]; rfl
  rw [t3, hn, ← hdf, a3] at b3
  injection b3 with hdi
  have t4 : ∀ df di, thicknessMatrix c' df di = thicknessMatrix c df di := by
    intro df di; rw [h.same]; rfl
  rw [t4, ← hdf, ← hdi, a4] at b4
  injection b4 with hth
  rw [← ht, ← hdf, ← hth, ← hs1] at b5
  rw [← ht, ← hdf, ← hdi, ← hth] at b6
  rw [← ht] at b7
  -- supply
  have htne := (setup_cols g hg hc hd hnd hne st hst).1
  have hle := initStratCols_le g hg h hc hd hd' _ htne _ (craterBasinList_rad g hd _ _ _ a2) _ _ _ _ _ _ a5 b5
  have htn : ∀ j, j < c.coldtrap_names.length → ∀ x ∈ column thick j, 0 ≤ x := by
    intro j hj x hx
    obtain ⟨-, hrow⟩ := thickness_rows c st.df dists thick a3 a4 j _ (List.getElem?_eq_getElem hj)
    obtain ⟨i, hi⟩ := List.mem_iff_getElem?.1 hx
    have hil := (List.getElem?_eq_some_iff.1 hi).1
    have hil' : i < st.df.length := by rw [hrow.length_eq]; exact hil
    exact C85_row_ejecta_partial g c d hc hd.sorted hl st.df _ _ a2 _ st.df[i] (List.getElem_mem _) x
      ((forall₂_iff_getElem?.1 hrow).2 i _ x (List.getElem?_eq_getElem hil') hi)
  have hej : ∀ p ∈ st.cols, ∀ x ∈ p.2.ej, 0 ≤ x := by
    intro p hp x hx
    obtain ⟨ejs, ice, e1, e2, e3⟩ := initStratCols_inv _ _ _ _ _ _ _ _ _ a5
    obtain ⟨-, -, bm⟩ := buildCols_spec _ _ _ _ _ _ hnd e3
    rcases bm p hp with hp | ⟨k, e, k1, k2, k3⟩
    · cases hp
    · rw [k3] at hx
      obtain ⟨l1, i1⟩ := mapM_ok_inv _ _ _ e1
      obtain ⟨w, w1, w2⟩ := i1 k k (by rw [List.getElem?_range k1])
      rw [Nat.zero_add, w1] at k2
      cases k2
      obtain ⟨i, hi⟩ := List.mem_iff_getElem?.1 hx
      obtain ⟨-, hrow⟩ := thickness_rows c st.df dists thick a3 a4 k _ (List.getElem?_eq_getElem k1)
      rw [ejecta_sum _ _ _ _ _ hrow.length_eq.symm _ w2 i x hi]
      apply List.sum_nonneg
      intro y hy
      obtain ⟨q, hq, rfl⟩ := List.mem_map.1 hy
      exact htn k k1 _ (List.of_mem_zip (a := q.1) (b := q.2) (List.mem_of_mem_filter hq)).2
  -- loss
  obtain ⟨hbd, hbf⟩ := bsedArrays_le h hd _ _ _ _ htn _ _ _ _ a6 b6
  have wf := setup_wellFormed g hg hc hd hnd hne st hst
  have wf' := setup_wellFormed g hg hc' hd' (hn ▸ hnd) (hn ▸ hne) st' hst'
  have hcost : c'.impact_gardening_costello = c.impact_gardening_costello := by rw [h.same]; rfl
  rw [hcost, hn, b7] at hcols'
  rw [a7] at hcols
  have fin := C73_run_monotone ejShield _ c.coldtrap_names st.cols st'.cols cols cols' _ _ _ _ _ _
    (fun p hp => ⟨wf.iceNonneg p hp, hej p hp⟩)
    (hle.imp (fun p q hpq => ⟨hpq.1, hpq.2.1, hpq.2.2 ▸ arrLE_refl _⟩))
    (overturn_le h hc st.time) hbd hbf (fun row hr x hx => (wf.fracRange row hr x hx).2)
    (fun row hr x hx => (wf'.fracRange row hr x hx).1) hcols hcols'
  intro name hn'
  obtain ⟨r, -, -, col, table, k1, -, k2, k3, -⟩ := hfmt name hn'
  obtain ⟨r', -, -, col', table', l1, -, l2, l3, -⟩ := hfmt' name (by rw [hn]; exact hn')
  have hice := (get_forall₂ (fun p q hpq => hpq.1) fin k1 l1).2
  refine ⟨col.ice, col'.ice, col.ej, k2, l2, k3, ?_, hice, ?_⟩
  · rw [l3]
    obtain ⟨u, u1, u2⟩ := run_cols g hg hc hd hnd hne st hst
    obtain ⟨u', u1', u2'⟩ := run_cols g hg hc' hd' (hn ▸ hnd) (hn ▸ hne) st' hst'
    have e1 := u1
    have e1' := u1'
    rw [a7] at e1
    rw [hcost, hn, b7] at e1'
    have q1 := hcols.symm.trans e1
    cases q1
    have q2 := hcols'.symm.trans e1'
    cases q2
    obtain ⟨c0, c1, m1, m2, m3, -⟩ := u2 name hn'
    obtain ⟨c0', c1', m1', m2', m3', -⟩ := u2' name (by rw [hn]; exact hn')
    rw [k1] at m2
    cases m2
    rw [l1] at m2'
    cases m2'
    rw [m3, m3', (get_forall₂ (fun p q hpq => hpq.1) hle m1 m1').2.2]
  · generalize col.ice = x at hice
    generalize col'.ice = y at hice
    clear k2 l2
    induction hice with
    | nil => exact le_rfl
    | cons hxy _ ih => rw [List.sum_cons, List.sum_cons]; exact add_le_add hxy ih

/-- **C115** the two options of the tables change neither ice nor ejecta. -/
theorem C115_tables_only (g : Gen σ) (hg : LawfulGen g) (c : RunCfg) (d : RunData)
    (hc : PhysicalCfg c) (hd : PhysicalData c d) (hl : Lunar c d) (hnd : c.coldtrap_names.Nodup)
    (x : ℝ) (b : Bool) (out out' : CsvOut) (hrun : runMain g c d = .ok out)
    (hrun' : runMain g { c with thickness_min := x, strat_after_age := b } d = .ok out') :
    ∀ name ∈ c.coldtrap_names, ∃ ice ej, out.ice.get name = .ok ice ∧ out.ej.get name = .ok ej ∧
      out'.ice.get name = .ok ice ∧ out'.ej.get name = .ok ej := by
  obtain ⟨c', hc'⟩ : ∃ t, t = { c with thickness_min := x, strat_after_age := b } := ⟨_, rfl⟩
  rw [← hc'] at hrun'
  have h1 : Gentler c c' := by
    rw [hc']
    exact ⟨rfl, id, le_rfl, Or.inl ⟨rfl, rfl⟩, le_rfl, id, le_rfl, le_rfl, le_rfl,
      le_rfl, le_rfl, le_rfl, le_rfl, le_rfl⟩
  have h2 : Gentler c' c := by
    rw [hc']
    exact ⟨rfl, id, le_rfl, Or.inl ⟨rfl, rfl⟩, le_rfl, id, le_rfl, le_rfl, le_rfl,
      le_rfl, le_rfl, le_rfl, le_rfl, le_rfl⟩
  have hd' : PhysicalData c' d := by
    rw [hc']
    exact ⟨hd.solar, hd.volc, hd.hops, hd.basins, hd.melt, hd.lost, hd.sorted⟩
  have hl' : Lunar c' d := by
    rw [hc']
    cases hl
    constructor <;> assumption
  have hn : c'.coldtrap_names = c.coldtrap_names := by rw [hc']
  intro name hname
  obtain ⟨i, i', ej, k1, k2, k3, k4, k5, -⟩ :=
    C115_gentler g hg c c' d hc hd hl hd' hnd h1 out out' hrun hrun' name hname
  obtain ⟨j, j', ej', l1, l2, l3, l4, l5, -⟩ :=
    C115_gentler g hg c' c d (gentler_physical h1 hc) hd' hl' hd (hn ▸ hnd) h2 out' out hrun' hrun
      name (hn ▸ hname)
  rw [k2] at l1
  cases l1
  rw [k1] at l2
  cases l2
  have e : i = i' := by
    clear k1 k2
    induction k5 with
    | nil => rfl
    | cons hxy _ ih =>
      cases l5 with
      | cons hyx hl => rw [le_antisymm hxy hyx, ih hl]
  subst e
  exact ⟨i, ej, k1, k3, k2, k4⟩

/-- **C115** without ballistic sedimentation a run of the shipped configuration and data, whatever
its seed, returns the same ejecta and at least as much ice in every layer of every cold trap. -/
theorem C115_no_sedimentation (g : Gen σ) (hg : LawfulGen g) (nk : List (ℝ × ℝ))
    (sortAges : CraterTable → CraterTable) (sortNk : List (ℝ × ℝ) → List (ℝ × ℝ))
    (setOrder : List (List Char) → List (List Char)) (hs : SortDesc sortAges) (seed : Int) :
    ∃ on off, runMain g (RunCfg.default seed) (shippedData nk sortAges sortNk setOrder) = .ok on ∧
      runMain g { RunCfg.default seed with ballistic_sed := false }
        (shippedData nk sortAges sortNk setOrder) = .ok off ∧
      ∀ name ∈ (RunCfg.default seed).coldtrap_names, ∃ ice ice' ej, on.ice.get name = .ok ice ∧
        off.ice.get name = .ok ice' ∧ on.ej.get name = .ok ej ∧ off.ej.get name = .ok ej ∧
        List.Forall₂ (· ≤ ·) ice ice' := by
  obtain ⟨c', hc'⟩ : ∃ t, t = { RunCfg.default seed with ballistic_sed := false } := ⟨_, rfl⟩
  rw [← hc']
  have h : Gentler (RunCfg.default seed) c' := by
    rw [hc']
    exact ⟨rfl, (fun h => by cases h), le_rfl, Or.inl ⟨rfl, rfl⟩, le_rfl, id, le_rfl, le_rfl, le_rfl,
      le_rfl, le_rfl, le_rfl, le_rfl, le_rfl⟩
  have hd := default_data nk sortAges sortNk setOrder hs seed
  have hd' : PhysicalData c' (shippedData nk sortAges sortNk setOrder) := by
    rw [hc']
    exact ⟨hd.solar, hd.volc, hd.hops, hd.basins, hd.melt, hd.lost, hd.sorted⟩
  have hp := default_physical seed
  have hr := default_runnable nk sortAges sortNk setOrder seed
  obtain ⟨on, h1⟩ := C72_returns g hg _ _ hp hd hr
  obtain ⟨off, h2⟩ := C72_returns g hg _ _ (gentler_physical h hp) hd' (gentler_runnable h hr)
  refine ⟨on, off, h1, h2, fun name hn => ?_⟩
  obtain ⟨i, i', ej, k1, k2, k3, k4, k5, -⟩ := C115_gentler g hg _ _ _ hp hd
    (default_lunar nk sortAges sortNk setOrder seed) hd' hr.nodup h on off h1 h2 name hn
  exact ⟨i, i', ej, k1, k2, k3, k4, k5⟩

/-- **C115** without solar wind ice it has the same ejecta and no more ice. -/
theorem C115_no_solar_wind (g : Gen σ) (hg : LawfulGen g) (nk : List (ℝ × ℝ))
    (sortAges : CraterTable → CraterTable) (sortNk : List (ℝ × ℝ) → List (ℝ × ℝ))
    (setOrder : List (List Char) → List (List Char)) (hs : SortDesc sortAges) (seed : Int) :
    ∃ on off, runMain g (RunCfg.default seed) (shippedData nk sortAges sortNk setOrder) = .ok on ∧
      runMain g { RunCfg.default seed with solar_wind_ice := false }
        (shippedData nk sortAges sortNk setOrder) = .ok off ∧
      ∀ name ∈ (RunCfg.default seed).coldtrap_names, ∃ ice ice' ej, on.ice.get name = .ok ice ∧
        off.ice.get name = .ok ice' ∧ on.ej.get name = .ok ej ∧ off.ej.get name = .ok ej ∧
        List.Forall₂ (· ≥ ·) ice ice' := by
  obtain ⟨c', hc'⟩ : ∃ t, t = { RunCfg.default seed with solar_wind_ice := false } := ⟨_, rfl⟩
  rw [← hc']
  have h : Gentler c' (RunCfg.default seed) := by
    rw [hc']
    exact ⟨rfl, id, le_rfl, Or.inl ⟨rfl, rfl⟩, le_rfl, (fun h => by cases h), le_rfl, le_rfl, le_rfl,
      le_rfl, le_rfl, le_rfl, le_rfl, le_rfl⟩
  have hd := default_data nk sortAges sortNk setOrder hs seed
  have hd' : PhysicalData c' (shippedData nk sortAges sortNk setOrder) := by
    rw [hc']
    exact ⟨(fun h => by cases h), hd.volc, hd.hops, hd.basins, hd.melt, hd.lost, hd.sorted⟩
  have hp := default_physical seed
  have hp' : PhysicalCfg c' := by
    rw [hc']
    cases hp
    constructor <;> assumption
  have hr := default_runnable nk sortAges sortNk setOrder seed
  have hr' : Runnable c' (shippedData nk sortAges sortNk setOrder) := by
    rw [hc']
    cases hr
    constructor <;> assumption
  have hl' : Lunar c' (shippedData nk sortAges sortNk setOrder) := by
    have hl := default_lunar nk sortAges sortNk setOrder seed
    rw [hc']
    cases hl
    constructor <;> assumption
  obtain ⟨on, h1⟩ := C72_returns g hg _ _ hp hd hr
  obtain ⟨off, h2⟩ := C72_returns g hg _ _ hp' hd' hr'
  refine ⟨on, off, h1, h2, fun name hn => ?_⟩
  obtain ⟨i, i', ej, k1, k2, k3, k4, k5, -⟩ := C115_gentler g hg _ _ _ hp' hd' hl' hd hr'.nodup h
    off on h2 h1 name (by rw [hc']; exact hn)
  exact ⟨i', i, ej, k2, k1, k4, k3, k5.flip⟩

/-- **C115** a run of the shipped configuration with comets of at least the shipped hydration, as in
the figure that compares 20% with 100%, has the same ejecta and at least as much ice. -/
theorem C115_wetter_comets (g : Gen σ) (hg : LawfulGen g) (nk : List (ℝ × ℝ))
    (sortAges : CraterTable → CraterTable) (sortNk : List (ℝ × ℝ) → List (ℝ × ℝ))
    (setOrder : List (List Char) → List (List Char)) (hs : SortDesc sortAges) (seed : Int) (x : ℝ)
    (hx : (RunCfg.default seed).comet_hydrated_wt_pct ≤ x) :
    ∃ dry wet, runMain g (RunCfg.default seed) (shippedData nk sortAges sortNk setOrder) = .ok dry ∧
      runMain g { RunCfg.default seed with comet_hydrated_wt_pct := x }
        (shippedData nk sortAges sortNk setOrder) = .ok wet ∧
      ∀ name ∈ (RunCfg.default seed).coldtrap_names, ∃ ice ice' ej, dry.ice.get name = .ok ice ∧
        wet.ice.get name = .ok ice' ∧ dry.ej.get name = .ok ej ∧ wet.ej.get name = .ok ej ∧
        List.Forall₂ (· ≤ ·) ice ice' := by
  obtain ⟨c', hc'⟩ : ∃ t, t = { RunCfg.default seed with comet_hydrated_wt_pct := x } := ⟨_, rfl⟩
  rw [← hc']
  have h : Gentler (RunCfg.default seed) c' := by
    rw [hc']
    exact ⟨rfl, id, le_rfl, Or.inl ⟨rfl, rfl⟩, le_rfl, id, le_rfl, le_rfl, le_rfl, le_rfl, hx, le_rfl,
      le_rfl, le_rfl⟩
  have hd := default_data nk sortAges sortNk setOrder hs seed
  have hd' : PhysicalData c' (shippedData nk sortAges sortNk setOrder) := by
    rw [hc']
    exact ⟨hd.solar, hd.volc, hd.hops, hd.basins, hd.melt, hd.lost, hd.sorted⟩
  have hp := default_physical seed
  have hr := default_runnable nk sortAges sortNk setOrder seed
  obtain ⟨on, h1⟩ := C72_returns g hg _ _ hp hd hr
  obtain ⟨off, h2⟩ := C72_returns g hg _ _ (gentler_physical h hp) hd' (gentler_runnable h hr)
  refine ⟨on, off, h1, h2, fun name hn => ?_⟩
  obtain ⟨i, i', ej, k1, k2, k3, k4, k5, -⟩ := C115_gentler g hg _ _ _ hp hd
    (default_lunar nk sortAges sortNk setOrder seed) hd' hr.nodup h on off h1 h2 name hn
  exact ⟨i, i', ej, k1, k2, k3, k4, k5⟩

/-- The shipped configuration without sedimentation and gardening. -/
noncomputable def calmCfg : RunCfg :=
  { RunCfg.default 1 with ballistic_sed := false, overturn_depth_present := 0 }

/-- C115 for two shipped runs with seed 1. -/
example : ∃ out out', runMain constGen (RunCfg.default 1) (shippedData [] sortDesc id id) = .ok out ∧
    runMain constGen calmCfg (shippedData [] sortDesc id id) = .ok out' ∧
    ∃ ice ice', out.ice.get "Faustini" = .ok ice ∧ out'.ice.get "Faustini" = .ok ice' ∧
      ice.sum ≤ ice'.sum := by
  obtain ⟨c', hc'⟩ : ∃ t, t = calmCfg := ⟨_, rfl⟩
  rw [← hc']
  have h : Gentler (RunCfg.default 1) c' := by
    rw [hc']
    refine ⟨rfl, (fun h => by cases h), le_rfl, Or.inr ⟨?_, ?_, le_rfl, ?_⟩, le_rfl, id, le_rfl,
      le_rfl, le_rfl, le_rfl, le_rfl, le_rfl, le_rfl, le_rfl⟩ <;> simp only [calmCfg, RunCfg.default] <;> norm_num
  have hd := default_data [] sortDesc id id sortDesc_spec 1
  have hd' : PhysicalData c' (shippedData [] sortDesc id id) := by
    rw [hc']
    exact ⟨hd.solar, hd.volc, hd.hops, hd.basins, hd.melt, hd.lost, hd.sorted⟩
  have hp := default_physical 1
  have hr := default_runnable [] sortDesc id id 1
  obtain ⟨on, h1⟩ := C72_returns constGen constGen_lawful _ _ hp hd hr
  obtain ⟨off, h2⟩ := C72_returns constGen constGen_lawful _ _ (gentler_physical h hp) hd'
    (gentler_runnable h hr)
  obtain ⟨i, i', ej, k1, k2, -, -, -, k5⟩ := C115_gentler constGen constGen_lawful _ _ _ hp hd
    (default_lunar [] sortDesc id id 1) hd' hr.nodup h on off h1 h2 "Faustini" (by decide +kernel)
  exact ⟨on, off, h1, h2, i, i', k1, k2, k5⟩

end MoonPIES
