import Verif.Props.Mutual

/-!
# C187: the craters a table names depend only on ages
-/

namespace MoonPIES

open Spec

variable {σ τ : Type}

/-- **C187** any two runs on the shipped files with the default ejecta scaling, `strat_after_age` and the same whole timesteps,
whatever their seeds, generators and other settings: a crater named in the table of a cold trap in the first run is named in
the second if there it is not older but at least one timestep old, and the cold trap is not younger.
If crater and cold trap have the same ages in both runs, the table of the one run names the crater exactly if that of the
other does, and the two layers have one time. -/
theorem C187_shipped (nk nk' : List (ℝ × ℝ)) (sortAges sortAges' : CraterTable → CraterTable)
    (sortNk sortNk' : List (ℝ × ℝ) → List (ℝ × ℝ)) (setOrder setOrder' : List (List Char) → List (List Char))
    (g : Gen σ) (hg : LawfulGen g) (g' : Gen τ) (hg' : LawfulGen g')
    (hs : Spec.SortDesc sortAges) (hs' : Spec.SortDesc sortAges') (c c' : RunCfg)
    (hc : PhysicalCfg c) (hd : PhysicalData c (shippedData nk sortAges sortNk setOrder))
    (hl : Lunar c (shippedData nk sortAges sortNk setOrder))
    (hr : Runnable c (shippedData nk sortAges sortNk setOrder)) (he : c.ej = EjCfg.default)
    (hnm : ∀ n ∈ c.coldtrap_names, n ∈ (RunCfg.default 1).coldtrap_names) (hmin : 0 ≤ c.thickness_min)
    (hmin' : c.thickness_min ≤ 0.001) (hsaa : c.strat_after_age = true)
    (kc : PhysicalCfg c') (kd : PhysicalData c' (shippedData nk' sortAges' sortNk' setOrder'))
    (kl : Lunar c' (shippedData nk' sortAges' sortNk' setOrder'))
    (kr : Runnable c' (shippedData nk' sortAges' sortNk' setOrder')) (ke : c'.ej = EjCfg.default)
    (knm : ∀ n ∈ c'.coldtrap_names, n ∈ (RunCfg.default 1).coldtrap_names) (kmin : 0 ≤ c'.thickness_min)
    (kmin' : c'.thickness_min ≤ 0.001) (ksaa : c'.strat_after_age = true)
    (hdt : 0 < c.timestep) (n : Nat) (hn : 1 < n) (htol : (n : ℝ) * RunCfg.rtol < 1)
    (hts : c.timestart = n * c.timestep) (hte : c.timeend = 0)
    (kdt : c'.timestep = c.timestep) (kts : c'.timestart = c.timestart) (kte : c'.timeend = 0) :
    ∃ out df s out' df' s', runMain g c (shippedData nk sortAges sortNk setOrder) = .ok out ∧
      craterBasinList g c (shippedData nk sortAges sortNk setOrder) (g.init c.seed) = .ok (df, s) ∧
      runMain g' c' (shippedData nk' sortAges' sortNk' setOrder') = .ok out' ∧
      craterBasinList g' c' (shippedData nk' sortAges' sortNk' setOrder') (g'.init c'.seed) = .ok (df', s') ∧
      ∀ name ∈ c.coldtrap_names, name ∈ c'.coldtrap_names →
        ∃ trap ∈ df, ∃ trap' ∈ df', trap.rest.crater.cname = name ∧ trap'.rest.crater.cname = name ∧
        ∃ table table', out.strat.get name = .ok table ∧ out'.strat.get name = .ok table' ∧
          ∀ q ∈ df, ∀ q' ∈ df', q.rest.crater.cname = q'.rest.crater.cname →
            (c.timestep ≤ q'.age → q'.age ≤ q.age → trap.age ≤ trap'.age →
              (∃ r ∈ table, Named q.rest.crater.cname r) → ∃ r ∈ table', Named q.rest.crater.cname r) ∧
            (q.age = q'.age → trap.age = trap'.age →
              ((∃ r ∈ table, Named q.rest.crater.cname r) ↔ ∃ r ∈ table', Named q.rest.crater.cname r) ∧
              ∀ r ∈ table, ∀ r' ∈ table', Named q.rest.crater.cname r → Named q.rest.crater.cname r' → r.time = r'.time) := by
  have hnames : ∀ (nk : List (ℝ × ℝ)) (a : CraterTable → CraterTable) (b : List (ℝ × ℝ) → List (ℝ × ℝ))
      (e : List (List Char) → List (List Char)),
      (((shippedData nk a b e).craters ++ (shippedData nk a b e).basins).map (·.cname)).Nodup := by
    intro nk a b e
    have := file_names.1
    simp only [shippedData, List.map_append, List.map_map, Function.comp_def] at this ⊢
    exact this
  have kdt' : 0 < c'.timestep := by rw [kdt]; exact hdt
  have kts' : c'.timestart = n * c'.timestep := by rw [kts, kdt]; exact hts
  obtain ⟨out, df, s, a1, a2, a3⟩ := C185_shipped nk sortAges sortNk setOrder g hg hs c hc hd hl hr he hnm hmin hmin' hdt n hn
    htol hts hte hsaa
  obtain ⟨out', df', s', b1, b2, b3⟩ := C185_shipped nk' sortAges' sortNk' setOrder' g' hg' hs' c' kc kd kl kr ke knm kmin kmin'
    kdt' n hn htol kts' kte ksaa
  obtain ⟨o, f, u, c1, c2, c3⟩ := C184_run g hg c _ hc hd hl hr hmin hdt n hn htol hts hte (shipped_plain _ _ _ _)
    (hnames nk sortAges sortNk setOrder)
  obtain ⟨o', f', u', d1, d2, d3⟩ := C184_run g' hg' c' _ kc kd kl kr kmin kdt' n hn htol kts' kte (shipped_plain _ _ _ _)
    (hnames nk' sortAges' sortNk' setOrder')
  rw [a1] at c1
  injection c1 with c1
  subst c1
  rw [b1] at d1
  injection d1 with d1
  subst d1
  rw [a2] at c2
  injection c2 with c2
  injection c2 with c2 _
  subst c2
  rw [b2] at d2
  injection d2 with d2
  injection d2 with d2 _
  subst d2
  refine ⟨out, df, s, out', df', s', a1, a2, b1, b2, ?_⟩
  intro name h1 h2
  obtain ⟨trap, t1, t2, table, t3, t4⟩ := a3 name h1
  obtain ⟨trap', t1', t2', table', t3', t4'⟩ := b3 name h2
  obtain ⟨tab, v1, v2⟩ := c3 name h1
  obtain ⟨tab', v1', v2'⟩ := d3 name h2
  rw [t3] at v1
  injection v1 with v1
  subst v1
  rw [t3'] at v1'
  injection v1' with v1'
  subst v1'
  refine ⟨trap, t1, trap', t1', t2, t2', table, table', t3, t3', ?_⟩
  intro q hq q' hq' hqq
  have e := t4 q hq
  have e' := t4' q' hq'
  rw [← hqq, kdt, kts] at e'
  refine ⟨?_, ?_⟩
  · intro l1 l2 l3 h
    obtain ⟨w1, -, w3⟩ := e.1 h
    exact e'.2 ⟨w1, l1, (l2.trans w3).trans (min_le_min_right _ l3)⟩
  · intro l1 l2
    refine ⟨?_, ?_⟩
    · rw [e, e', l1, l2]
    · intro r hr r' hr' n1 n2
      rw [(v2 q hq r hr n1).1, l1]
      exact (v2' q' hq' r' hr' (by rw [← hqq]; exact n2)).1.symm

/-- C187 holds on the shipped files for any two seeds of the default configuration. -/
example (seed seed' : Int) := C187_shipped [] [] sortDesc sortDesc id id id id constGen constGen_lawful constGen constGen_lawful
  sortDesc_spec sortDesc_spec (RunCfg.default seed) (RunCfg.default seed')
  (default_physical seed) (default_data _ _ _ _ sortDesc_spec seed) (default_lunar _ _ _ _ seed)
  (default_runnable _ _ _ _ seed) rfl (fun _ h => h) (by norm_num [RunCfg.default]) (by norm_num [RunCfg.default])
  (by norm_num [RunCfg.default])
  (default_physical seed') (default_data _ _ _ _ sortDesc_spec seed') (default_lunar _ _ _ _ seed')
  (default_runnable _ _ _ _ seed') rfl (fun _ h => h) (by norm_num [RunCfg.default]) (by norm_num [RunCfg.default])
  (by norm_num [RunCfg.default])
  (by norm_num [RunCfg.default]) 425 (by norm_num) (by norm_num [RunCfg.rtol]) (by norm_num [RunCfg.default])
  (by norm_num [RunCfg.default]) rfl rfl (by norm_num [RunCfg.default])

end MoonPIES
