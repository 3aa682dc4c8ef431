import Verif.Props.Superposition

/-!
# C182: the ejecta of a table are those of the craters it names
-/

namespace MoonPIES

open Spec

theorem sum_filter_ite {α : Type} (p : α → Bool) (f : α → ℝ) (l : List α) :
    ((l.filter p).map f).sum = (l.map (fun a => if p a = true then f a else 0)).sum := by
  induction l with
  | nil => rfl
  | cons a l ih =>
    cases hp : p a
    · rw [List.filter_cons_of_neg (by simp [hp]), ih, List.map_cons, List.sum_cons, hp]
      simp
    · rw [List.filter_cons_of_pos hp, List.map_cons, List.sum_cons, ih, List.map_cons, List.sum_cons, hp]
      simp

theorem sum_swap {α β : Type} (f : α → β → ℝ) (l : List α) (m : List β) :
    (l.map (fun a => (m.map (fun b => f a b)).sum)).sum = (m.map (fun b => (l.map (fun a => f a b)).sum)).sum := by
  induction l with
  | nil =>
    symm
    apply List.sum_eq_zero
    intro x hx
    obtain ⟨b, -, rfl⟩ := List.mem_map.1 hx
    rfl
  | cons a l ih =>
    rw [List.map_cons, List.sum_cons, ih, ← List.sum_map_add]
    rfl

theorem sum_one {α : Type} (P : α → Prop) [DecidablePred P] (x : ℝ) (above below : List α) (r : α) (hr : P r)
    (hno : ∀ r' ∈ above ++ below, ¬ P r') : ((above ++ r :: below).map (fun a => if P a then x else 0)).sum = x := by
  have hz : ∀ l : List α, (∀ a ∈ l, ¬ P a) → (l.map (fun a => if P a then x else 0)).sum = 0 := by
    intro l hl
    apply List.sum_eq_zero
    intro y hy
    obtain ⟨a, ha, rfl⟩ := List.mem_map.1 hy
    exact if_neg (hl a ha)
  rw [List.map_append, List.sum_append, List.map_cons, List.sum_cons, if_pos hr,
    hz above (fun a ha => hno a (List.mem_append_left _ ha)), hz below (fun a ha => hno a (List.mem_append_right _ ha))]
  ring

variable {σ : Type}

open Classical in
/-- **C182** every run on the shipped files with the default ejecta scaling, whatever the seed: the ejecta of all layers of the
table of a cold trap together are the ejecta that the craters and basins named in the table leave there. They are all ejecta
of the column, or with `strat_after_age` all since the cold trap formed. -/
theorem C182_shipped (nk : List (ℝ × ℝ)) (sortAges : CraterTable → CraterTable) (sortNk : List (ℝ × ℝ) → List (ℝ × ℝ))
    (setOrder : List (List Char) → List (List Char)) (g : Gen σ) (hg : LawfulGen g) (hs : Spec.SortDesc sortAges) (c : RunCfg)
    (hc : PhysicalCfg c) (hd : PhysicalData c (shippedData nk sortAges sortNk setOrder))
    (hl : Lunar c (shippedData nk sortAges sortNk setOrder))
    (hr : Runnable c (shippedData nk sortAges sortNk setOrder)) (he : c.ej = EjCfg.default)
    (hn : ∀ n ∈ c.coldtrap_names, n ∈ (RunCfg.default 1).coldtrap_names) (hmin : 0 ≤ c.thickness_min)
    (hmin' : c.thickness_min ≤ 0.001) (hdt : 0 < c.timestep) (hts : c.timestep < c.timestart)
    (hspan : c.timestep ≤ c.timestart - c.timeend) :
    ∃ out df s time, runMain g c (shippedData nk sortAges sortNk setOrder) = .ok out ∧
      craterBasinList g c (shippedData nk sortAges sortNk setOrder) (g.init c.seed) = .ok (df, s) ∧
      getTimeArray c.timestart c.timeend c.timestep = .ok time ∧
      ∀ name ∈ c.coldtrap_names, ∃ trap ∈ df, trap.rest.crater.cname = name ∧ ∃ table th ej,
        out.strat.get name = .ok table ∧ out.ej.get name = .ok ej ∧ List.Forall₂ (RowEjecta c df name) df th ∧
        (table.map (·.ejecta)).sum =
          (((df.zip th).filter (fun p => decide (∃ r ∈ table, Named p.1.rest.crater.cname r))).map (·.2)).sum ∧
        (table.map (·.ejecta)).sum =
          (((time.zip ej).filter (fun p => decide (c.strat_after_age = true →
            p.1 < trap.age + |trap.age| * RunCfg.rtol))).map (·.2)).sum := by
  obtain ⟨out, df, s, hout, hdf, h179⟩ := C179_shipped nk sortAges sortNk setOrder g hg hs c hc hd hr he hn hmin' hdt hts hspan
  have hnames : (((shippedData nk sortAges sortNk setOrder).craters ++
      (shippedData nk sortAges sortNk setOrder).basins).map (·.cname)).Nodup := by
    have := file_names.1
    simp only [shippedData, List.map_append, List.map_map, Function.comp_def] at this ⊢
    exact this
  obtain ⟨df1, s1, time, k1, k2, h177⟩ := C177_run g hg c _ hc hd hl hr.nodup hmin hdt hts hspan (shipped_plain _ _ _ _)
    hnames out hout
  obtain ⟨df2, s2, time2, j1, j2, hsteps⟩ := run_steps_nonneg g hg c _ hc hd hl hr.nodup out hout
  obtain ⟨df5, s5, time5, n1, n2, h75⟩ := C75_run_ejecta g hg c _ hc hd hr.nodup out hout
  obtain ⟨out3, df3, s3, time3, i1, i2, i3, h113⟩ := C113_labels nk sortAges sortNk setOrder g hg hs c hc hd hr he hn hmin hmin'
  obtain ⟨out4, l1, h180⟩ := C180_shipped nk sortAges sortNk setOrder g hg hs c hc hd hr he hn hmin'
  rw [hdf] at k1 j1 i2 n1
  injection n1 with n1
  injection n1 with n1 _
  subst n1
  injection k1 with k1
  injection k1 with k1 _
  subst k1
  injection j1 with j1
  injection j1 with j1 _
  subst j1
  injection i2 with i2
  injection i2 with i2 _
  subst i2
  rw [k2] at j2 i3 n2
  injection n2 with n2
  subst n2
  injection j2 with j2
  subst j2
  injection i3 with i3
  subst i3
  rw [hout] at i1 l1
  injection i1 with i1
  subst i1
  injection l1 with l1
  subst l1
  have hpl : ∀ q ∈ df, PlainName q.rest.crater.cname := by
    intro q hq
    obtain ⟨r, r1, r2⟩ := df_names g c _ hd.sorted df _ _ hdf q hq
    rw [← r2]; exact shipped_plain _ _ _ _ r r1
  obtain ⟨tl, hl1, -, -, hl2, -⟩ := C19_shape_partial c.timestart c.timeend c.timestep hdt hts hspan
  rw [k2] at hl1
  injection hl1 with hl1
  subst hl1
  refine ⟨out, df, s, time, hout, hdf, k2, ?_⟩
  intro name hname
  obtain ⟨table, th, t1, t2, t3⟩ := h179 name hname
  obtain ⟨trap0, -, -, table1, u1, -, u3⟩ := h177 name hname
  obtain ⟨trap, v1, v2, steps, table2, -, v4, v5, v6, v7, v8, th2, -, v9⟩ := hsteps name hname
  obtain ⟨ice3, ej3, table3, -, w2, w3, w4, w5⟩ := h113 name hname
  obtain ⟨table4, x1, x2⟩ := h180 name hname
  have v9 := v9 (fun r hr => plain_good (shipped_plain _ _ _ _ r hr))
  rw [t1] at u1 v5 w3 x1
  injection u1 with u1
  subst u1
  injection v5 with v5
  subst v5
  injection w3 with w3
  subst w3
  injection x1 with x1
  subst x1
  rw [v4] at w2
  injection w2 with w2
  subst w2
  refine ⟨trap, v1, v2, table, th, _, t1, v4, t2, ?_, ?_⟩
  · -- each layer has the ejecta of those it names
    have hlayer : ∀ r ∈ table, r.ejecta = ((df.zip th).map (fun p =>
        if Named p.1.rest.crater.cname r then p.2 else 0)).sum := by
      intro r hrm
      have hfil : (((df.zip th).filter (fun p => decide (Named p.1.rest.crater.cname r))).map (·.2)).sum =
          ((df.zip th).map (fun p => if Named p.1.rest.crater.cname r then p.2 else 0)).sum := by
        rw [sum_filter_ite]
        simp only [decide_eq_true_eq]
      rw [← hfil]
      by_cases hnm : ∃ q ∈ df, Named q.rest.crater.cname r
      · exact t3 r hrm hnm
      · have hnil : (df.zip th).filter (fun p => decide (Named p.1.rest.crater.cname r)) = [] := by
          rw [List.filter_eq_nil_iff]
          intro p hp hpn
          have p1' : (p.1, p.2) ∈ df.zip th := hp
          exact hnm ⟨p.1, (List.of_mem_zip p1').1, of_decide_eq_true hpn⟩
        rw [hnil]
        show r.ejecta = 0
        obtain ⟨-, ⟨hsaa, hlab⟩ | ⟨i, x, y, -, -, -, ⟨-, hne, hlab⟩ | ⟨-, -, hlab⟩⟩⟩ := w5 r hrm
        · rw [hsaa] at v7
          obtain ⟨r0, layers, s0, rest, e1, -, -, -, e4, -, -, e7⟩ := C24_time_order _ _ _ steps (by rw [v6]; exact hl2) (by
            intro st hst
            obtain ⟨i, hi⟩ := List.mem_iff_getElem?.1 hst
            rw [v9 i st hi]
            exact sources_not_formation hpl i) _ v7
          rw [e1] at hrm
          rcases List.mem_cons.1 hrm with rfl | hrm
          · exact e4
          · exact absurd hlab (e7 r hrm).1
        · exfalso
          obtain ⟨n, hnn⟩ := List.exists_mem_of_ne_nil _ hne
          have hmem : ∀ n ∈ ReachSources RunCfg.rtol time df name i, ∃ q ∈ df, q.rest.crater.cname = n := by
            intro n hn
            unfold ReachSources at hn
            obtain ⟨q, q1, q2⟩ := List.mem_map.1 hn
            exact ⟨q, List.mem_of_mem_filter q1, q2⟩
          obtain ⟨q, q1, q2⟩ := hmem n hnn
          refine hnm ⟨q, q1, ReachSources RunCfg.rtol time df name i, ?_, hlab, by rw [q2]; exact hnn⟩
          intro m hm
          obtain ⟨q', q1', rfl⟩ := hmem m hm
          exact (hpl q' q1').2.1
        · exact (x2 r hrm hlab).1
    have hsum : (table.map (·.ejecta)).sum = (table.map (fun r => ((df.zip th).map (fun p =>
        if Named p.1.rest.crater.cname r then p.2 else 0)).sum)).sum := by
      congr 1
      exact List.map_congr_left hlayer
    rw [hsum, sum_swap, sum_filter_ite]
    congr 1
    apply List.map_congr_left
    intro p hp
    have p1' : (p.1, p.2) ∈ df.zip th := hp
    by_cases hex : ∃ r ∈ table, Named p.1.rest.crater.cname r
    · rw [if_pos (decide_eq_true hex)]
      obtain ⟨r, r1, r2⟩ := hex
      obtain ⟨x, -, -, y3⟩ := u3 p.1 (List.of_mem_zip p1').1
      obtain ⟨-, above, below, e, hno⟩ := y3 r r1 r2
      rw [e]
      exact sum_one (fun r => Named p.1.rest.crater.cname r) p.2 above below r r2 hno
    · rw [if_neg (by simpa using hex)]
      apply List.sum_eq_zero
      intro y hy
      obtain ⟨r, r1, rfl⟩ := List.mem_map.1 hy
      exact if_neg (fun h => hex ⟨r, r1, h⟩)
  · rw [(C21_accounting _ _ _ _ _ _ v7).2]
    have hz : time.zip (steps.map (·.ejecta)) = steps.map (fun s => (s.time, s.ejecta)) := by
      rw [← v6, List.zip_map']
    rw [hz, List.filter_map, List.map_map]
    symm
    apply sum_filter_of_zero (fun s : Step ℝ => s.ejecta)
    · intro st _ hst
      exact decide_eq_true (of_decide_eq_true hst).2
    · intro st hst h1 h2
      by_contra hne
      refine of_decide_eq_false h2 ⟨Or.inr ?_, of_decide_eq_true h1⟩
      obtain ⟨ej5, th5, y1, -, y3, y4⟩ := h75 name hname
      rw [v4] at y1
      injection y1 with y1
      obtain ⟨i, hi⟩ := List.mem_iff_getElem?.1 hst
      have hy := y4 i st.ejecta (by rw [← y1, List.getElem?_map, hi]; rfl)
      have hall : ∀ p ∈ df.zip th5, p.2 = 0 ∨ 0.001 < p.2 := by
        intro p hp
        have p1' : (p.1, p.2) ∈ df.zip th5 := hp
        obtain ⟨m1, m2⟩ := C113_thickness nk sortAges sortNk setOrder g hg hs c hc hd hr he hn df _ s hdf p.1
          (List.of_mem_zip p1').1 name hname p.2 ((List.forall₂_iff_zip.1 y3).2 p1')
        by_cases hin : InReach p.1.rest.crater.cname name
        · exact Or.inr (m1 hin)
        · exact Or.inl (m2 hin)
      rw [hy] at hne ⊢
      have hex : ∃ z ∈ ((df.zip th5).filter (fun p => decide (InRange RunCfg.rtol time p.1.age ∧
          Nearest time p.1.age i))).map (·.2), z ≠ 0 := by
        by_contra hno
        push Not at hno
        exact hne (List.sum_eq_zero hno)
      obtain ⟨z, z1, z2⟩ := hex
      have hle := List.single_le_sum (by
        intro w hw
        obtain ⟨p, p1, rfl⟩ := List.mem_map.1 hw
        rcases hall p (List.mem_of_mem_filter p1) with h | h
        · exact h.ge
        · exact (lt_trans (by norm_num) h).le) z z1
      obtain ⟨p, p1, rfl⟩ := List.mem_map.1 z1
      rcases hall p (List.mem_of_mem_filter p1) with h | h
      · exact absurd h z2
      · exact lt_of_lt_of_le (lt_of_le_of_lt hmin' h) hle

/-- C182 holds for every seed of the default configuration. -/
example (seed : Int) := C182_shipped [] sortDesc id id constGen constGen_lawful sortDesc_spec
  (RunCfg.default seed) (default_physical seed) (default_data _ _ _ _ sortDesc_spec seed) (default_lunar _ _ _ _ seed)
  (default_runnable _ _ _ _ seed) rfl (fun _ h => h) (by norm_num [RunCfg.default]) (by norm_num [RunCfg.default])
  (by norm_num [RunCfg.default]) (by norm_num [RunCfg.default]) (by norm_num [RunCfg.default])

end MoonPIES
