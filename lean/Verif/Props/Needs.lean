import Verif.Spec.Needs
import Verif.Props.Aloof
import Verif.Props.Rounding
import Verif.Props.Volcanic

/-!
# C141: what a run needs
-/

namespace MoonPIES

open Spec

variable {σ : Type}

theorem liftPy_ok_inv {α : Type} {x : Except PyErr α} {a : α} (h : liftPy x = .ok a) : x = .ok a := by
  cases x with
  | error e => cases h
  | ok b => injection h with h; rw [h]

theorem time_needs {c : RunCfg} {time : List ℝ} (h : getTimeArray c.timestart c.timeend c.timestep = .ok time)
    (hne : time ≠ []) : c.timestep ≠ 0 ∧ 1 ≤ (c.timestart - c.timeend) / c.timestep := by
  unfold getTimeArray at h
  split at h
  · cases h
  · rename_i h0
    refine ⟨h0, ?_⟩
    unfold linspace at h
    split at h
    · cases h
    · rename_i h1
      by_contra hlt
      push Not at hlt
      have hz : pyInt ((c.timestart - c.timeend) / c.timestep) = 0 := by
        apply le_antisymm _ (not_lt.1 h1)
        unfold pyInt
        split
        · exact Int.lt_add_one_iff.1 (Int.floor_lt.2 (by simpa using hlt))
        · rename_i hn
          exact Int.ceil_le.2 (by simpa using (not_le.1 hn).le)
      rw [hz] at h
      simp at h
      exact hne h

theorem species_needs {cfg : IceCfg ℝ} {m x : ℝ} (h : iceThickness cfg m = .ok x) :
    cfg.ice_species = "H2O" ∨ cfg.ice_species = "CO2" := by
  unfold iceThickness at h
  by_cases h1 : cfg.ice_species = "H2O"
  · exact .inl h1
  by_cases h2 : cfg.ice_species = "CO2"
  · exact .inr h2
  rw [if_neg h1, if_neg h2] at h
  cases h

theorem solar_needs {cfg : SolarCfg ℝ} {lum : List (ℝ × ℝ)} {time out : List ℝ} (hne : time ≠ [])
    (h : solarWindIce cfg lum time = .ok out) (hs : cfg.solar_wind_ice = true) :
    (cfg.solar_wind_mode.toLower = "benna" ∨ cfg.solar_wind_mode.toLower = "lucey-hurley") ∧
      (cfg.faint_young_sun = true → lum ≠ []) := by
  unfold solarWindIce at h
  rw [if_pos hs] at h
  obtain ⟨mass, h1, -⟩ := bind_ok_inv h
  unfold solarWindMass at h1
  obtain ⟨rate, h2, h3⟩ := bind_ok_inv h1
  constructor
  · unfold solarRate at h2
    by_cases e1 : cfg.solar_wind_mode.toLower = "benna"
    · exact .inl e1
    by_cases e2 : cfg.solar_wind_mode.toLower = "lucey-hurley"
    · exact .inr e2
    rw [if_neg e1, if_neg e2] at h2
    cases h2
  · intro hf hl
    dsimp only at h3
    rw [if_pos hf, hl] at h3
    cases time with
    | nil => exact hne rfl
    | cons t ts =>
      rw [List.mapM_cons] at h3
      simp [npInterp] at h3
      cases h3

theorem ages2time_needs {A V : Type} {tol : ℝ} {time : List ℝ} {items : List (ℝ × V)} {agg : A → V → A} {fill : A}
    {out : List A} (h : ages2time tol time items agg fill = .ok out) : time ≠ [] := by
  rintro rfl
  unfold ages2time minmaxRtol at h
  cases h

theorem rawTable_mem_conv (g : Gen σ) (hg : LawfulGen g) (c : RunCfg) (d : RunData) (s : σ) :
    ∀ raw ∈ d.craters ++ d.basins, ∃ b icy, readRow b icy raw ∈ rawTable g c d s := by
  intro raw h
  unfold rawTable
  rcases List.mem_append.1 h with h | h
  · exact ⟨false, "no", List.mem_append_left _ (List.mem_map_of_mem h)⟩
  · obtain ⟨i, hi, rfl⟩ := List.mem_iff_getElem.1 h
    have hl : i < (icyBasins c.imp (g.random d.basins.length s).1).length := by
      rw [icyBasins_length, hg.random_length]; exact hi
    refine ⟨true, (icyBasins c.imp (g.random d.basins.length s).1)[i], List.mem_append_right _ ?_⟩
    rw [List.mem_iff_getElem?]
    refine ⟨i, ?_⟩
    rw [List.getElem?_zipWith, List.getElem?_eq_getElem hi, List.getElem?_eq_getElem hl]

theorem coldtrapDist_needs {cfg : EjCfg} {df : List Crater} {row : Crater} {trap : String} {x : Option ℝ}
    (h : coldtrapDist cfg df row trap = .ok x) (hn : row.cname ≠ trap) :
    (df.filter (fun c => decide (c.cname = trap))).length ≤ 1 := by
  unfold coldtrapDist at h
  simp only [if_neg hn] at h
  cases hf : df.filter (fun c => decide (c.cname = trap)) with
  | nil => simp
  | cons a l =>
    cases l with
    | nil => simp
    | cons b l => rw [hf] at h; cases h

/-- **C141** a run that completes was given all that it needs. -/
theorem C141_needs (g : Gen σ) (hg : LawfulGen g) (c : RunCfg) (d : RunData) (hp : ∀ l, (d.sortAges l).Perm l)
    (out : CsvOut) (h : runMain g c d = .ok out) : Usable c d := by
  rw [C139_run_from] at h
  obtain ⟨time, ht, h⟩ := bind_ok_inv h
  obtain ⟨p, hl, h⟩ := bind_ok_inv h
  obtain ⟨df, s⟩ := p
  have ht := liftPy_ok_inv ht
  have hl := liftPy_ok_inv hl
  unfold runFrom at h
  obtain ⟨dists, hd, h⟩ := bind_ok_inv h
  have hd := liftPy_ok_inv hd
  obtain ⟨thick, -, h⟩ := bind_ok_inv h
  obtain ⟨cs, hi, h⟩ := bind_ok_inv h
  have hi := liftPy_ok_inv hi
  obtain ⟨bb, -, h⟩ := bind_ok_inv h
  obtain ⟨cols, -, h⟩ := bind_ok_inv h
  have h := liftPy_ok_inv h
  -- the table
  obtain ⟨z, mid, h3, h4⟩ := craterBasinList_inv g c d _ _ _ hl
  have hnames : (df.map (fun r => r.rest.crater.cname)).Perm ((d.craters ++ d.basins).map (·.cname)) := by
    rw [← rawTable_cnames g hg c d (g.init c.seed)]
    have e := newAges_rest _ _ _ _ _ h3
    have e2 : mid.map (fun r => r.rest.crater.cname) =
        (rawTable g c d (g.init c.seed)).map (fun r => r.rest.crater.cname) := by
      have := congrArg (List.map (fun r : CraterCols => r.crater.cname)) e
      rw [List.map_map, List.map_map] at this
      exact this
    rw [← e2, h4]
    exact (hp mid).map _
  -- the ice
  unfold initStratCols at hi
  obtain ⟨ej, -, hi⟩ := bind_ok_inv hi
  obtain ⟨ice, hi, -⟩ := bind_ok_inv hi
  unfold iceCols at hi
  obtain ⟨polar, hpol, hi⟩ := bind_ok_inv hi
  obtain ⟨volc, hv, hi⟩ := bind_ok_inv hi
  obtain ⟨rows, hrows, -⟩ := bind_ok_inv hi
  unfold polarIce at hpol
  obtain ⟨imp, him, hpol⟩ := bind_ok_inv hpol
  obtain ⟨com, -, hpol⟩ := bind_ok_inv hpol
  obtain ⟨sol, hsol, -⟩ := bind_ok_inv hpol
  have hne : time ≠ [] := by
    unfold impactIce at him
    obtain ⟨nb, -, him⟩ := bind_ok_inv him
    obtain ⟨bas, hbas, -⟩ := bind_ok_inv him
    unfold iceBasins at hbas
    obtain ⟨sp, -, hbas⟩ := bind_ok_inv hbas
    obtain ⟨ms, -, hbas⟩ := bind_ok_inv hbas
    obtain ⟨o, ho, -⟩ := bind_ok_inv hbas
    exact ages2time_needs ho
  have hvm : c.volc_mode = "Head" := by
    by_contra hn
    by_cases hk : c.volc_mode = "NK"
    · rw [hk, C46_refuted] at hv; cases hv
    · rw [(C46_mode c.volc_mode _ _ _ _ _ _ _ _).2 hk hn] at hv; cases hv
  -- the tables
  unfold formatCsv at h
  obtain ⟨ages, hages, h⟩ := bind_ok_inv h
  obtain ⟨fl, hfl, h⟩ := bind_ok_inv h
  have hlisted : ∀ n ∈ c.coldtrap_names, ∃ r ∈ df, r.rest.crater.cname = n := by
    unfold trapAges at hages
    obtain ⟨rs, hrs, -⟩ := bind_ok_inv hages
    intro n hn
    obtain ⟨i, hi⟩ := List.mem_iff_getElem?.1 hn
    obtain ⟨b, -, hb⟩ := (mapM_ok_inv _ _ _ hrs).2 i n hi
    unfold rowsNamed at hb
    cases hf : df.filter (fun r => decide (r.rest.crater.cname = n)) with
    | nil => rw [hf] at hb; cases hb
    | cons r l =>
      have : r ∈ df.filter (fun r => decide (r.rest.crater.cname = n)) := by rw [hf]; simp
      rw [List.mem_filter, decide_eq_true_eq] at this
      exact ⟨r, this⟩
  refine ⟨?_, ?_, ?_, ?_, time_needs ht hne, hvm, ?_, ?_, ?_⟩
  · intro hn
    unfold trapAges at hages
    rw [hn] at hages
    injection hages with hages
    rw [← hages] at hfl
    unfold formatLoop at hfl
    injection hfl with hfl
    subst hfl
    cases h
  · intro n hn
    obtain ⟨r, hr, e⟩ := hlisted n hn
    have : n ∈ (d.craters ++ d.basins).map (·.cname) :=
      hnames.mem_iff.1 (List.mem_map.2 ⟨r, hr, e⟩)
    obtain ⟨q, hq, e⟩ := List.mem_map.1 this
    exact ⟨q, hq, e⟩
  · intro n hn
    by_cases hall : ∀ r ∈ d.craters ++ d.basins, r.cname = n
    · exact .inr hall
    left
    push Not at hall
    obtain ⟨q, hq, hqn⟩ := hall
    have hq' : q.cname ∈ df.map (fun r => r.rest.crater.cname) := hnames.mem_iff.2 (List.mem_map_of_mem hq)
    obtain ⟨row, hrow, hrow'⟩ := List.mem_map.1 hq'
    obtain ⟨i, hi⟩ := List.mem_iff_getElem?.1 (List.mem_map_of_mem (f := fun r : CraterAge ℝ CraterCols => r.rest.crater) hrow)
    obtain ⟨b, -, hb⟩ := (mapM_ok_inv _ _ _ hd).2 i _ hi
    obtain ⟨j, hj⟩ := List.mem_iff_getElem?.1 hn
    obtain ⟨x, -, hx⟩ := (mapM_ok_inv _ _ _ hb).2 j _ hj
    have h1 := coldtrapDist_needs hx (by rw [hrow']; exact hqn)
    rw [← hnames.count_eq]
    have h2 : (df.map (fun r => r.rest.crater.cname)).count n =
        ((df.map (fun r => r.rest.crater)).filter (fun q => decide (q.cname = n))).length := by
      rw [List.filter_map, List.length_map, List.count_eq_countP, List.countP_map, List.countP_eq_length_filter]
      congr 1
    rw [h2]
    obtain ⟨r, hr, e⟩ := hlisted n hn
    have h3 : 0 < ((df.map (fun r => r.rest.crater)).filter (fun q => decide (q.cname = n))).length := by
      apply List.length_pos_of_mem (a := r.rest.crater)
      rw [List.mem_filter, decide_eq_true_eq]
      exact ⟨List.mem_map_of_mem hr, e⟩
    exact le_antisymm h1 h3
  · intro raw hraw
    obtain ⟨b, icy, hm⟩ := rawTable_mem_conv g hg c d (g.init c.seed) raw hraw
    have := ((C28_raises_iff id c.timestep z _).2.1 ⟨mid, by unfold randomizeAges; rw [h3]; rfl⟩) _ hm
    simp only [readRow] at this
    rw [← add_mul] at this
    exact (pos_iff_pos_of_mul_pos this).2 (by norm_num)
  · rw [hvm, (C46_mode "Head" _ _ _ _ _ _ _ _).1 rfl] at hv
    have hl : (volcanicHead c.head time).length = time.length := by simp [volcanicHead]
    cases hm : volcanicHead c.head time with
    | nil =>
      rw [hm] at hl
      exact absurd (List.length_eq_zero_iff.1 hl.symm) hne
    | cons m ms =>
      rw [hm] at hv
      obtain ⟨b, -, hb⟩ := (mapM_ok_inv _ _ _ hv).2 0 m rfl
      exact species_needs hb
  · intro hs
    obtain ⟨h1, h2⟩ := solar_needs hne hsol hs
    refine ⟨h1, fun hf e => h2 hf ?_⟩
    rw [e]; rfl
  · intro hh n hn
    unfold iceColsTime at hrows
    obtain ⟨pv, -, hrows⟩ := bind_ok_inv hrows
    obtain ⟨tr, htr, -⟩ := bind_ok_inv hrows
    unfold trapRows at htr
    have hh' : c.cols.ballistic_hop_moores = true := hh
    rw [if_pos hh'] at htr
    obtain ⟨bh, hbh, -⟩ := bind_ok_inv htr
    obtain ⟨i, hi⟩ := List.mem_iff_getElem?.1 hn
    obtain ⟨b, -, hb⟩ := (mapM_ok_inv _ _ _ hbh).2 i n hi
    exact ⟨b, hb⟩

/-- The default configuration with other cold traps, volcanism, species and solar wind. -/
noncomputable def chosen (seed : Int) (traps : List String) (volc species solar : String) : RunCfg :=
  { RunCfg.default seed with
    coldtrap_names := traps, volc_mode := volc, ice_species := species, solar_wind_mode := solar }

theorem hop_only : ∀ n ∈ hopFile.map (·.1), n ∈ ["Haworth", "Shoemaker", "Faustini", "Shackleton",
    "Slater", "Amundsen", "Cabeus", "Sverdrup", "de Gerlache", "Idel'son L", "Wiechert J",
    "Cabeus B"] := by decide +kernel

/-- **C141** with the shipped files the default run completes for exactly these choices: any of the
twelve cold traps (but at least one), volcanism by Head et al., ice of water or carbon dioxide, and
solar wind by Benna et al. or Lucey and Hurley. -/
theorem C141_choices (g : Gen σ) (hg : LawfulGen g) (nk : List (ℝ × ℝ))
    (sortAges : CraterTable → CraterTable) (sortNk : List (ℝ × ℝ) → List (ℝ × ℝ))
    (setOrder : List (List Char) → List (List Char)) (hs : Spec.SortDesc sortAges) (seed : Int)
    (traps : List String) (hn : traps.Nodup) (volc species solar : String) :
    (∃ out, runMain g (chosen seed traps volc species solar)
      (shippedData nk sortAges sortNk setOrder) = .ok out) ↔
    (traps ≠ [] ∧ (∀ n ∈ traps, n ∈ ["Haworth", "Shoemaker", "Faustini", "Shackleton", "Slater",
      "Amundsen", "Cabeus", "Sverdrup", "de Gerlache", "Idel'son L", "Wiechert J", "Cabeus B"])) ∧
    volc = "Head" ∧ (species = "H2O" ∨ species = "CO2") ∧
    (solar.toLower = "benna" ∨ solar.toLower = "lucey-hurley") := by
  constructor
  · rintro ⟨out, h⟩
    have u := C141_needs g hg _ _ (fun l => (hs l).1) out h
    refine ⟨⟨u.names, fun n hn => hop_only n ?_⟩, u.volc, u.species, (u.solar rfl).1⟩
    obtain ⟨x, hx⟩ := u.hops rfl n hn
    obtain ⟨q, hq, hq'⟩ := List.mem_map.1 (PyDict.mem_of_get hx)
    exact List.mem_map.2 ⟨q, hq, congrArg Prod.fst hq'⟩
  · rintro ⟨⟨h1, h2⟩, rfl, h3, h4⟩
    have hp := default_physical seed
    have hd := default_data nk sortAges sortNk setOrder hs seed
    have hr := default_runnable nk sortAges sortNk setOrder seed
    refine C72_returns g hg _ _ { hp with area := ?_ } ?_ ?_
    · refine h3.imp (fun e => ⟨e, ?_⟩) (fun e => ⟨e, ?_⟩)
      · simp only [chosen, RunCfg.default]; norm_num
      · simp only [chosen, RunCfg.default]; norm_num
    · exact { hd with
        solar := fun e => ⟨h4, (hd.solar e).2⟩
        hops := fun e n hn => hd.hops e n (h2 n hn) }
    · exact { hr with
        names := h1
        nodup := hn
        once := fun n hn => hr.once n (h2 n hn)
        old := fun r hr' hn => hr.old r hr' (h2 _ hn)
        peak := fun r hr' hb =>
          ⟨(hr.peak r hr' hb).1, fun t ht hn => (hr.peak r hr' hb).2 t ht (h2 _ hn)⟩ }

/-- Two cold traps of carbon dioxide ice run; a third one at the north pole, or volcanism by
Needham and Kring, stops the run. -/
example (seed : Int) :
    (∃ out, runMain constGen (chosen seed ["Faustini", "Cabeus"] "Head" "CO2" "Lucey-Hurley")
      (shippedData [] sortDesc id id) = .ok out) ∧
    (¬ ∃ out, runMain constGen (chosen seed ["Faustini", "Cabeus", "Hermite"] "Head" "CO2" "Benna")
      (shippedData [] sortDesc id id) = .ok out) ∧
    ¬ ∃ out, runMain constGen (chosen seed ["Faustini", "Cabeus"] "NK" "CO2" "Benna")
      (shippedData [] sortDesc id id) = .ok out := by
  refine ⟨?_, ?_, ?_⟩
  · rw [C141_choices (hg := constGen_lawful) (hs := sortDesc_spec) (hn := by simp)]
    exact ⟨by simp, rfl, .inr rfl, .inr (by decide +kernel)⟩
  · rw [C141_choices (hg := constGen_lawful) (hs := sortDesc_spec) (hn := by simp)]
    simp
  · rw [C141_choices (hg := constGen_lawful) (hs := sortDesc_spec) (hn := by simp)]
    simp

end MoonPIES
