import Verif.Props.LayerAge

/-!
# C185: a table starts at the age of its cold trap
-/

namespace MoonPIES

open Spec

theorem mem_grid {dt x : ℝ} {n : Nat} : x ∈ uniformGrid ((n : ℝ) * dt) dt n ↔ ∃ j : ℤ, 1 ≤ j ∧ j ≤ n ∧ x = j * dt := by
  unfold uniformGrid
  rw [List.mem_map]
  constructor
  · rintro ⟨i, hi, rfl⟩
    have hi := List.mem_range.1 hi
    refine ⟨n - i, by omega, by omega, ?_⟩
    push_cast
    ring
  · rintro ⟨j, j1, j2, rfl⟩
    refine ⟨(n - j).toNat, List.mem_range.2 (by omega), ?_⟩
    have h : (((n - j).toNat : ℕ) : ℤ) = n - j := by omega
    have h' : (((n - j).toNat : ℕ) : ℝ) = n - j := by exact_mod_cast h
    rw [h']
    ring

theorem rtol_pos : (0 : ℝ) < RunCfg.rtol := by unfold RunCfg.rtol; norm_num

/-- Which ages on the grid are in the range of the times. -/
theorem range_grid {dt age : ℝ} {n : Nat} (hdt : 0 < dt) (hn : 0 < n) (htol : (n : ℝ) * RunCfg.rtol < 1)
    (k : ℤ) (hk : age = k * dt) :
    InRange RunCfg.rtol (uniformGrid (n * dt) dt n) age ↔ dt ≤ age ∧ age ≤ n * dt := by
  have hr0 := rtol_pos
  have hr1 : RunCfg.rtol < (1 : ℝ) := by unfold RunCfg.rtol; norm_num
  constructor
  · rintro ⟨⟨lo, l1, -, l3⟩, ⟨hh, u1, -, u3⟩⟩
    obtain ⟨a, a1, -, rfl⟩ := mem_grid.1 l1
    obtain ⟨b, b1, b2, rfl⟩ := mem_grid.1 u1
    have a1' : (1 : ℝ) ≤ a := by exact_mod_cast a1
    have b1' : (1 : ℝ) ≤ b := by exact_mod_cast b1
    have b2' : (b : ℝ) ≤ n := by exact_mod_cast b2
    have pa : 0 < (a : ℝ) * dt := by nlinarith
    have pb : 0 < (b : ℝ) * dt := by nlinarith
    rw [abs_of_pos pa] at l3
    rw [abs_of_pos pb] at u3
    have k1 : (0 : ℝ) < k := by
      have : 0 < age := by nlinarith
      rw [hk] at this
      exact pos_of_mul_pos_left this hdt.le
    have k2 : (k : ℝ) < n + 1 := by
      have h1 : (b : ℝ) * dt ≤ n * dt := mul_le_mul_of_nonneg_right b2' hdt.le
      have h2 : (b : ℝ) * dt * RunCfg.rtol ≤ n * dt * RunCfg.rtol := mul_le_mul_of_nonneg_right h1 hr0.le
      have h3 : n * dt * RunCfg.rtol < dt := by nlinarith
      have : (k : ℝ) * dt < (n + 1) * dt := by rw [← hk]; linarith
      exact lt_of_mul_lt_mul_right this hdt.le
    have k1' : (1 : ℤ) ≤ k := by exact_mod_cast k1
    have k2' : k ≤ n := by
      have : k < (n : ℤ) + 1 := by exact_mod_cast k2
      omega
    have k3 : (1 : ℝ) ≤ k := by exact_mod_cast k1'
    have k4 : (k : ℝ) ≤ n := by exact_mod_cast k2'
    rw [hk]
    exact ⟨by nlinarith, mul_le_mul_of_nonneg_right k4 hdt.le⟩
  · rintro ⟨h1, h2⟩
    have hn1 : (1 : ℝ) ≤ n := by exact_mod_cast hn
    have hpos : 0 < (n : ℝ) * dt := by nlinarith
    refine ⟨⟨dt, mem_grid.2 ⟨1, le_rfl, by omega, by simp⟩, ?_, ?_⟩, ⟨n * dt, mem_grid.2 ⟨n, by omega, le_rfl, by simp⟩, ?_, ?_⟩⟩
    · intro t ht
      obtain ⟨j, j1, -, rfl⟩ := mem_grid.1 ht
      have : (1 : ℝ) ≤ j := by exact_mod_cast j1
      nlinarith
    · rw [abs_of_pos hdt]
      nlinarith
    · intro t ht
      obtain ⟨j, -, j2, rfl⟩ := mem_grid.1 ht
      have : (j : ℝ) ≤ n := by exact_mod_cast j2
      exact mul_le_mul_of_nonneg_right this hdt.le
    · rw [abs_of_pos hpos]
      nlinarith

/-- The cut at the age of a cold trap on the grid keeps the times up to that age. -/
theorem cut_grid {dt : ℝ} {n : Nat} (hdt : 0 < dt) (htol : (n : ℝ) * RunCfg.rtol < 1) (j k : ℤ) (h1 : 1 ≤ j) (h2 : j ≤ n) :
    (j : ℝ) * dt < k * dt + |(k : ℝ) * dt| * RunCfg.rtol ↔ j ≤ k := by
  have hr0 := rtol_pos
  have hr1 : RunCfg.rtol < (1 : ℝ) := by unfold RunCfg.rtol; norm_num
  have j1 : (1 : ℝ) ≤ j := by exact_mod_cast h1
  constructor
  · intro h
    by_contra hlt
    have hkj : k + 1 ≤ j := by omega
    have hkj' : (k : ℝ) + 1 ≤ j := by exact_mod_cast hkj
    have hkn : (k : ℝ) < n := by exact_mod_cast (show k < n by omega)
    rcases le_or_gt 0 (k : ℝ) with h0 | h0
    · rw [abs_of_nonneg (mul_nonneg h0 hdt.le)] at h
      have h3 : (k : ℝ) * RunCfg.rtol ≤ n * RunCfg.rtol := mul_le_mul_of_nonneg_right hkn.le hr0.le
      have h4 : (k : ℝ) * dt * RunCfg.rtol < dt := by nlinarith
      nlinarith
    · have h3 : (k : ℝ) * dt < 0 := mul_neg_of_neg_of_pos h0 hdt
      rw [abs_of_neg h3] at h
      nlinarith
  · intro h
    have hjk : (j : ℝ) ≤ k := by exact_mod_cast h
    have hk : 0 < (k : ℝ) * dt := by nlinarith
    rw [abs_of_pos hk]
    have := mul_le_mul_of_nonneg_right hjk hdt.le
    have := mul_pos hk hr0
    linarith

variable {σ : Type}

/-- **C185** every run that ends at the present with whole timesteps, with plain and distinct names: a table names exactly the
craters and basins that leave more ejecta than the least thickness shown, are neither older than the first nor younger
than the last time and, with `strat_after_age`, not older than the cold trap. The mark of the formation age then stands at the
age of the cold trap, or at the first time if the cold trap is older. -/
theorem C185_run (g : Gen σ) (hg : LawfulGen g) (c : RunCfg) (d : RunData) (hc : PhysicalCfg c)
    (hd : PhysicalData c d) (hl : Lunar c d) (hr : Runnable c d) (hmin : 0 ≤ c.thickness_min)
    (hdt : 0 < c.timestep) (n : Nat) (hn : 1 < n) (htol : (n : ℝ) * RunCfg.rtol < 1) (hts : c.timestart = n * c.timestep)
    (hte : c.timeend = 0) (hplain : ∀ r ∈ d.craters ++ d.basins, PlainName r.cname)
    (hnames : ((d.craters ++ d.basins).map (·.cname)).Nodup) :
    ∃ out df s, runMain g c d = .ok out ∧ craterBasinList g c d (g.init c.seed) = .ok (df, s) ∧
      ∀ name ∈ c.coldtrap_names, ∃ trap ∈ df, trap.rest.crater.cname = name ∧
        ∃ table, out.strat.get name = .ok table ∧
        (∀ q ∈ df, ∃ x, RowEjecta c df name q x ∧
          ((∃ r ∈ table, Named q.rest.crater.cname r) ↔ c.thickness_min < x ∧ c.timestep ≤ q.age ∧ q.age ≤ c.timestart ∧
            (c.strat_after_age = true → q.age ≤ trap.age))) ∧
        (c.strat_after_age = true → ∃ r layers, table = r :: layers ∧ r.label = "Formation age" ∧ r.ice = 0 ∧ r.ejecta = 0 ∧
          r.time = min trap.age c.timestart) := by
  obtain ⟨out, hout⟩ := C72_returns g hg c _ hc hd hr
  have hn1 : (1 : ℝ) < n := by exact_mod_cast hn
  have hlt : c.timestep < c.timestart := by rw [hts]; nlinarith
  have hsp : c.timestep ≤ c.timestart - c.timeend := by rw [hte, sub_zero]; exact hlt.le
  obtain ⟨df, s, time, h1, h2, h3⟩ := C177_run g hg c d hc hd hl hr.nodup hmin hdt hlt hsp hplain hnames out hout
  obtain ⟨df1, s1, time1, k1, k2, k3⟩ := run_steps_nonneg g hg c d hc hd hl hr.nodup out hout
  obtain ⟨df2, s2, j1, -, j3⟩ := craterBasinList_ok g hg hc hd hr (g.init c.seed)
  rw [h1] at k1 j1
  injection k1 with k1
  injection k1 with k1 _
  subst k1
  injection j1 with j1
  injection j1 with j1 _
  subst j1
  rw [h2] at k2
  injection k2 with k2
  subst k2
  obtain ⟨tl, hl1, -, -, hl2, -⟩ := C19_shape_partial c.timestart c.timeend c.timestep hdt hlt hsp
  rw [h2] at hl1
  injection hl1 with hl1
  subst hl1
  rw [hte] at h2
  have hgrid := run_grid hdt n (by omega) hts h2
  subst hgrid
  have hpl : ∀ q ∈ df, PlainName q.rest.crater.cname := by
    intro q hq
    obtain ⟨r, r1, r2⟩ := df_names g c d hd.sorted df _ _ h1 q hq
    rw [← r2]; exact hplain r r1
  have hdn := table_names_nodup g hg c d hd.sorted hnames df _ _ h1
  have hage : ∀ q ∈ df, ∃ k : ℤ, q.age = k * c.timestep := by
    intro q hq
    obtain ⟨raw, -, b, icy, -, -, -, -, -, k, hk⟩ := j3 q hq
    exact ⟨k, hk⟩
  refine ⟨out, df, s, hout, h1, ?_⟩
  intro name hname
  obtain ⟨trap, tm, tn, table, t1, -, t3⟩ := h3 name hname
  obtain ⟨trap', tm', tn', steps, table', -, -, a3, a4, a5, -, th, -, a9⟩ := k3 name hname
  have a9 := a9 (fun r hr => plain_good (hplain r hr))
  rw [t1] at a3
  injection a3 with a3
  subst a3
  have htt : trap' = trap := List.inj_on_of_nodup_map hdn tm' tm (tn'.trans tn.symm)
  subst htt
  obtain ⟨kt, hkt⟩ := hage trap' tm
  refine ⟨trap', tm, tn, table, t1, ?_, ?_⟩
  · intro q hq
    obtain ⟨x, x1, x2, -⟩ := t3 q hq
    obtain ⟨k, hk⟩ := hage q hq
    refine ⟨x, x1, ?_⟩
    rw [x2, range_grid hdt (by omega) htol k hk, hts]
    have hb : ∀ {m : ℤ}, q.age = m * c.timestep → c.timestep ≤ q.age → q.age ≤ n * c.timestep → 1 ≤ m ∧ m ≤ n := by
      intro m hm b1 b2
      rw [hm] at b1 b2
      have c1 : (1 : ℝ) ≤ m := by
        by_contra h
        nlinarith [not_le.1 h]
      have c2 : (m : ℝ) ≤ n := le_of_mul_le_mul_right b2 hdt
      exact ⟨by exact_mod_cast c1, by exact_mod_cast c2⟩
    constructor
    · rintro ⟨y1, ⟨y2, y3⟩, i, t, i1, i2, i3⟩
      obtain ⟨c1, c2⟩ := hb hk y2 y3
      refine ⟨y1, y2, y3, ?_⟩
      intro hsaa
      have ht := nearest_grid hdt htol k hk ((range_grid hdt (by omega) htol k hk).2 ⟨y2, y3⟩) i1 i2
      have h := i3 hsaa
      rw [ht, hk, hkt, cut_grid hdt htol k kt c1 c2] at h
      rw [hk, hkt]
      have : (k : ℝ) ≤ kt := by exact_mod_cast h
      exact mul_le_mul_of_nonneg_right this hdt.le
    · rintro ⟨y1, y2, y3, y4⟩
      obtain ⟨c1, c2⟩ := hb hk y2 y3
      have hne : uniformGrid ((n : ℝ) * c.timestep) c.timestep n ≠ [] := by
        intro h
        have := mem_grid (dt := c.timestep) (n := n) (x := n * c.timestep) |>.2 ⟨n, by omega, le_rfl, by simp⟩
        rw [h] at this
        cases this
      obtain ⟨i, -, i1⟩ := exists_nearest hne q.age
      obtain ⟨t, i2, i3, i4⟩ := i1
      refine ⟨y1, ⟨y2, y3⟩, i, t, ⟨t, i2, i3, i4⟩, i2, ?_⟩
      intro hsaa
      have ht := nearest_grid hdt htol k hk ((range_grid hdt (by omega) htol k hk).2 ⟨y2, y3⟩) ⟨t, i2, i3, i4⟩ i2
      rw [ht, hk, hkt, cut_grid hdt htol k kt c1 c2]
      have := y4 hsaa
      rw [hk, hkt] at this
      exact_mod_cast le_of_mul_le_mul_right this hdt
  · intro hsaa
    rw [hsaa] at a5
    have hdec : (steps.map (·.time)).Pairwise (· > ·) := by rw [a4]; exact hl2
    obtain ⟨r0, layers, s0, rest, e1, e2, e3, e4, e5, e6, -⟩ := C24_time_order _ _ _ steps hdec (by
      intro st hst
      obtain ⟨i, hi⟩ := List.mem_iff_getElem?.1 hst
      rw [a9 i st hi]
      exact sources_not_formation hpl i) _ a5
    refine ⟨r0, layers, e1, e3, e4, e5, ?_⟩
    have hs0 : s0 ∈ steps.filter (fun s => decide (s.time < trap'.age + |trap'.age| * RunCfg.rtol)) := by
      rw [e2]; exact List.mem_cons_self
    obtain ⟨m1, m2⟩ := List.mem_filter.1 hs0
    have m2 := of_decide_eq_true m2
    have m3 : s0.time ∈ uniformGrid ((n : ℝ) * c.timestep) c.timestep n := by rw [← a4]; exact List.mem_map_of_mem m1
    obtain ⟨j, g1, g2, g3⟩ := mem_grid.1 m3
    rw [g3, hkt, cut_grid hdt htol j kt g1 g2] at m2
    -- the youngest of the age of the cold trap and the first time is kept
    obtain ⟨l, l1⟩ : ∃ l, l = min kt (n : ℤ) := ⟨_, rfl⟩
    have hlg : (l : ℝ) * c.timestep ∈ steps.map (·.time) := by
      rw [a4]
      exact mem_grid.2 ⟨l, by omega, by omega, rfl⟩
    obtain ⟨st, st1, st2⟩ := List.mem_map.1 hlg
    have hst : st ∈ s0 :: rest := by
      rw [← e2]
      refine List.mem_filter.2 ⟨st1, decide_eq_true ?_⟩
      rw [st2, hkt, cut_grid hdt htol l kt (by omega) (by omega)]
      omega
    have hle : st.time ≤ s0.time := by
      have hp : ((s0 :: rest).map (·.time)).Pairwise (· > ·) := by
        rw [← e2]
        exact hdec.sublist (List.filter_sublist.map _)
      rw [List.map_cons, List.pairwise_cons] at hp
      rcases List.mem_cons.1 hst with rfl | h
      · exact le_rfl
      · exact (hp.1 _ (List.mem_map_of_mem h)).le
    rw [st2, g3] at hle
    have hlj : l ≤ j := by exact_mod_cast le_of_mul_le_mul_right hle hdt
    have hj : j = min kt (n : ℤ) := by omega
    rw [e6, g3, hj, hkt, hts]
    push_cast
    exact min_mul_of_nonneg _ _ hdt.le

/-- **C185** every run on the shipped files with the default ejecta scaling, whole timesteps and any seed: with `strat_after_age`
the table of a cold trap names exactly the craters and basins listed for it that are not older than the cold trap and have an
age among the times of the run. -/
theorem C185_shipped (nk : List (ℝ × ℝ)) (sortAges : CraterTable → CraterTable) (sortNk : List (ℝ × ℝ) → List (ℝ × ℝ))
    (setOrder : List (List Char) → List (List Char)) (g : Gen σ) (hg : LawfulGen g) (hs : Spec.SortDesc sortAges) (c : RunCfg)
    (hc : PhysicalCfg c) (hd : PhysicalData c (shippedData nk sortAges sortNk setOrder))
    (hl : Lunar c (shippedData nk sortAges sortNk setOrder))
    (hr : Runnable c (shippedData nk sortAges sortNk setOrder)) (he : c.ej = EjCfg.default)
    (hnm : ∀ n ∈ c.coldtrap_names, n ∈ (RunCfg.default 1).coldtrap_names) (hmin : 0 ≤ c.thickness_min)
    (hmin' : c.thickness_min ≤ 0.001) (hdt : 0 < c.timestep) (n : Nat) (hn : 1 < n) (htol : (n : ℝ) * RunCfg.rtol < 1)
    (hts : c.timestart = n * c.timestep) (hte : c.timeend = 0) (hsaa : c.strat_after_age = true) :
    ∃ out df s, runMain g c (shippedData nk sortAges sortNk setOrder) = .ok out ∧
      craterBasinList g c (shippedData nk sortAges sortNk setOrder) (g.init c.seed) = .ok (df, s) ∧
      ∀ name ∈ c.coldtrap_names, ∃ trap ∈ df, trap.rest.crater.cname = name ∧
        ∃ table, out.strat.get name = .ok table ∧ ∀ q ∈ df,
          ((∃ r ∈ table, Named q.rest.crater.cname r) ↔ InReach q.rest.crater.cname name ∧ c.timestep ≤ q.age ∧
            q.age ≤ min trap.age c.timestart) := by
  obtain ⟨out, df, s, hout, h1, h2⟩ := C185_run g hg c _ hc hd hl hr hmin hdt n hn htol hts hte (shipped_plain _ _ _ _) (by
    have := file_names.1
    simp only [shippedData, List.map_append, List.map_map, Function.comp_def] at this ⊢
    exact this)
  refine ⟨out, df, s, hout, h1, ?_⟩
  intro name hname
  obtain ⟨trap, t1, t2, table, t3, t4, -⟩ := h2 name hname
  refine ⟨trap, t1, t2, table, t3, ?_⟩
  intro q hq
  obtain ⟨x, x1, x2⟩ := t4 q hq
  obtain ⟨a1, a2⟩ := C113_thickness nk sortAges sortNk setOrder g hg hs c hc hd hr he hnm df _ s h1 q hq name hname x x1
  have hiff : c.thickness_min < x ↔ InReach q.rest.crater.cname name := by
    constructor
    · intro h
      by_contra hno
      rw [a2 hno] at h
      linarith
    · intro h
      have := a1 h
      linarith
  rw [x2, hiff, le_min_iff]
  constructor
  · rintro ⟨y1, y2, y3, y4⟩
    exact ⟨y1, y2, y4 hsaa, y3⟩
  · rintro ⟨y1, y2, y4, y3⟩
    exact ⟨y1, y2, y3, fun _ => y4⟩

/-- C185 holds on the shipped files for every seed of the default configuration. -/
example (seed : Int) := C185_shipped [] sortDesc id id constGen constGen_lawful sortDesc_spec
  (RunCfg.default seed) (default_physical seed) (default_data _ _ _ _ sortDesc_spec seed) (default_lunar _ _ _ _ seed)
  (default_runnable _ _ _ _ seed) rfl (fun _ h => h) (by norm_num [RunCfg.default]) (by norm_num [RunCfg.default])
  (by norm_num [RunCfg.default]) 425 (by norm_num) (by norm_num [RunCfg.rtol]) (by norm_num [RunCfg.default])
  (by norm_num [RunCfg.default]) (by norm_num [RunCfg.default])

/-- C185 holds for every seed of the default configuration. -/
example (seed : Int) := C185_run constGen constGen_lawful _ _ (default_physical seed)
  (default_data [] sortDesc id id sortDesc_spec seed)
  (default_lunar [] sortDesc id id seed) (default_runnable [] sortDesc id id seed)
  (by norm_num [RunCfg.default]) (by norm_num [RunCfg.default]) 425 (by norm_num) (by norm_num [RunCfg.rtol])
  (by norm_num [RunCfg.default]) (by norm_num [RunCfg.default]) (shipped_plain _ _ _ _) (by
    have := file_names.1
    simp only [shippedData, List.map_append, List.map_map, Function.comp_def] at this ⊢
    exact this)

end MoonPIES
