import Verif.Props.Named

/-!
# C179: what a layer that names craters holds
-/

namespace MoonPIES

open Spec

/-- A label that one row has is kept with all that the row holds. -/
theorem merge_single (rows : List (Row ℝ)) (o : Row ℝ) (ho : o ∈ mergeAdjacent rows)
    (h1 : (rows.filter (fun r => decide (r.label = o.label))).length ≤ 1) : o ∈ rows := by
  obtain ⟨bs, hb, hs⟩ := C20_merge_spec rows
  obtain ⟨i, hi⟩ := List.mem_iff_getElem?.1 ho
  have hil := (List.getElem?_eq_some_iff.1 hi).1
  have hl' : i < bs.length := by rw [hs.length_eq]; exact hil
  have hsum := (List.forall₂_iff_get.1 hs).2 i hl' hil
  have e : (mergeAdjacent rows).get ⟨i, hil⟩ = o := (List.getElem?_eq_some_iff.1 hi).2
  rw [e] at hsum
  obtain ⟨b, hbe⟩ : ∃ b, b = bs.get ⟨i, hl'⟩ := ⟨_, rfl⟩
  rw [← hbe] at hsum
  have hbm : b ∈ bs := by rw [hbe]; exact List.get_mem _ _
  obtain ⟨s1, s2, l, s3, s4, s5⟩ := hsum
  have hlm := List.mem_of_getLast? s3
  have hsub : b.Sublist rows := by rw [← hb.flatten]; exact List.sublist_flatten_of_mem hbm
  have hfil : b.filter (fun r => decide (r.label = o.label)) = b := by
    rw [List.filter_eq_self]
    intro r hr
    rw [decide_eq_true_iff, s4]
    exact hb.const b hbm r hr l hlm
  have hlen : b.length ≤ 1 := by
    rw [← hfil]
    exact (hsub.filter _).length_le.trans h1
  obtain ⟨x, rfl⟩ : ∃ x, b = [x] := by
    rcases b with _ | ⟨x, _ | ⟨y, b⟩⟩
    · cases hlm
    · exact ⟨x, rfl⟩
    · simp at hlen
  rw [List.mem_singleton] at hlm
  subst hlm
  simp only [List.map_cons, List.map_nil, List.sum_cons, List.sum_nil, add_zero] at s1 s2
  have : o = l := by
    cases o; cases l
    simp only at s1 s2 s4 s5
    rw [s1, s2, s4, s5]
  rw [this]
  exact hsub.subset (by simp)

theorem filter_length_le_one {α : Type} {f : α → ℝ} {p : α → Bool} {l : List α} (hd : (l.map f).Pairwise (· > ·))
    (he : ∀ a ∈ l, ∀ b ∈ l, p a = true → p b = true → f a = f b) : (l.filter p).length ≤ 1 := by
  have hd' := hd.sublist (List.filter_sublist (p := p) |>.map f)
  have he' : ∀ a ∈ l.filter p, ∀ b ∈ l.filter p, f a = f b := by
    intro a ha b hb
    obtain ⟨a1, a2⟩ := List.mem_filter.1 ha
    obtain ⟨b1, b2⟩ := List.mem_filter.1 hb
    exact he a a1 b b1 a2 b2
  generalize l.filter p = m at hd' he'
  rcases m with _ | ⟨x, _ | ⟨y, m⟩⟩
  · simp
  · simp
  · have h1 := he' x (by simp) y (by simp)
    simp only [List.map_cons, List.pairwise_cons] at hd'
    have h2 := hd'.1 (f y) (by simp)
    rw [h1] at h2
    exact absurd h2 (lt_irrefl _)

/-- **C179** a label that stands for one timestep only: its layer holds the ice and the ejecta of that timestep and of no other. -/
theorem C179_table (thickMin tol age : ℝ) (saa : Bool) (steps : List (Step ℝ)) (out : List (StratRow ℝ))
    (hdec : (steps.map (·.time)).Pairwise (· > ·)) (h : makeStratCol thickMin tol saa age steps = .ok out)
    (r : StratRow ℝ) (hr : r ∈ out) (h1 : r.label ≠ "Ice") (h2 : r.label ≠ "Minor source(s)")
    (h3 : r.label ≠ "Formation age")
    (hone : ∀ s ∈ steps, ∀ s' ∈ steps, s.src = r.label → s'.src = r.label → s.time = s'.time) :
    ∃ s ∈ steps, s.src = r.label ∧ s.time = r.time ∧ s.ice = r.ice ∧ s.ejecta = r.ejecta := by
  obtain ⟨pre, ho, hpre⟩ := makeStratCol_ok h
  rw [dropUnlabelled_tableRow] at ho
  obtain ⟨rows, hrows⟩ : ∃ rows, rows = (steps.filter (fun s => decide (saa = true →
      s.time < age + |age| * tol))).filterMap (tableRow thickMin) := ⟨_, rfl⟩
  rw [← hrows] at ho
  have hpn : ∀ q ∈ pre, q.label ≠ r.label := by
    rcases hpre with ⟨-, rfl⟩ | ⟨-, s, rest, -, rfl⟩
    · simp
    · intro q hq
      rw [List.mem_singleton] at hq
      subst hq
      exact fun e => h3 e.symm
  have hfrom : ∀ q ∈ rows, q.label = r.label → ∃ s ∈ steps, s.src = r.label ∧ s.time = q.time ∧ s.ice = q.ice ∧
      s.ejecta = q.ejecta := by
    intro q hq hl
    rw [hrows] at hq
    obtain ⟨s, s1, s2⟩ := List.mem_filterMap.1 hq
    unfold tableRow at s2
    obtain ⟨lab, s4, rfl⟩ := Option.map_eq_some_iff.1 s2
    simp only at hl
    rw [hl] at s4
    rcases (rowLabel_spec _ _ _).1 s4 with ⟨-, -, e⟩ | ⟨-, -, e⟩ | ⟨-, -, e⟩
    · exact ⟨s, List.mem_of_mem_filter s1, e.symm, rfl, rfl, rfl⟩
    · exact absurd e h2
    · exact absurd e h1
  have hm : r.row ∈ mergeAdjacent (pre ++ rows) := by
    rw [← addDepthPct_rows (mergeAdjacent (pre ++ rows)), ← ho]
    exact List.mem_map_of_mem hr
  have hrow := merge_single _ _ hm (by
    rw [List.filter_append, List.filter_eq_nil_iff.2 (by
      intro q hq
      rw [decide_eq_true_iff]
      exact hpn q hq), List.nil_append]
    refine filter_length_le_one (f := fun q : Row ℝ => q.time) ?_ ?_
    · rw [hrows, ← dropUnlabelled_tableRow]
      exact hdec.sublist ((dropUnlabelled_times _ _).trans (List.filter_sublist.map _))
    · intro a ha b hb pa pb
      obtain ⟨s, s1, s2, s3, -⟩ := hfrom a ha (of_decide_eq_true pa)
      obtain ⟨s', t1, t2, t3, -⟩ := hfrom b hb (of_decide_eq_true pb)
      show a.time = b.time
      rw [← s3, ← t3]
      exact hone s s1 s' t1 s2 t2)
  rcases List.mem_append.1 hrow with hrow | hrow
  · exact absurd rfl (hpn _ hrow)
  · exact hfrom _ hrow rfl

variable {σ : Type}

open Classical in
/-- **C179** every run that returns, with plain and distinct names and a descending time array: a layer that names a crater
holds the ice and the ejecta of one timestep. Its ejecta are those of all craters and basins dated to that time, named or
not. -/
theorem C179_run (g : Gen σ) (hg : LawfulGen g) (c : RunCfg) (d : RunData) (hc : PhysicalCfg c)
    (hd : PhysicalData c d) (hnd : c.coldtrap_names.Nodup)
    (hdt : 0 < c.timestep) (hts : c.timestep < c.timestart) (hspan : c.timestep ≤ c.timestart - c.timeend)
    (hplain : ∀ r ∈ d.craters ++ d.basins, PlainName r.cname)
    (hnames : ((d.craters ++ d.basins).map (·.cname)).Nodup) (out : CsvOut) (hrun : runMain g c d = .ok out) :
    ∃ df s time, craterBasinList g c d (g.init c.seed) = .ok (df, s) ∧
      getTimeArray c.timestart c.timeend c.timestep = .ok time ∧
      ∀ name ∈ c.coldtrap_names, ∃ table ice ej th, out.strat.get name = .ok table ∧ out.ice.get name = .ok ice ∧
        out.ej.get name = .ok ej ∧ List.Forall₂ (RowEjecta c df name) df th ∧
        ∀ r ∈ table, ∀ q ∈ df, Named q.rest.crater.cname r →
          ∃ i, Nearest time q.age i ∧ time[i]? = some r.time ∧ ice[i]? = some r.ice ∧ ej[i]? = some r.ejecta ∧
            r.label = joinComma (Sources RunCfg.rtol c.thickness_min time df th i) ∧
            r.ejecta = (((df.zip th).filter (fun p => decide (InRange RunCfg.rtol time p.1.age ∧
              Nearest time p.1.age i))).map (·.2)).sum := by
  obtain ⟨df, s, time, hdf, htime, hsteps⟩ := run_steps g hg c d hc hd hnd out hrun
  obtain ⟨df', s', time', k1, k2, k3⟩ := C75_run_ejecta g hg c d hc hd hnd out hrun
  rw [hdf] at k1
  injection k1 with k1
  injection k1 with k1 _
  subst k1
  rw [htime] at k2
  injection k2 with k2
  subst k2
  obtain ⟨tl, hl1, -, -, hl2, -⟩ := C19_shape_partial c.timestart c.timeend c.timestep hdt hts hspan
  rw [htime] at hl1
  injection hl1 with hl1
  subst hl1
  have hgood : ∀ r ∈ d.craters ++ d.basins, GoodName r.cname := fun r hr => plain_good (hplain r hr)
  have hpl : ∀ q ∈ df, PlainName q.rest.crater.cname := by
    intro q hq
    obtain ⟨r, r1, r2⟩ := df_names g c d hd.sorted df _ _ hdf q hq
    rw [← r2]; exact hplain r r1
  have hdn := table_names_nodup g hg c d hd.sorted hnames df _ _ hdf
  refine ⟨df, s, time, hdf, htime, ?_⟩
  intro name hn
  obtain ⟨trap, tm, tn, steps, table, a1, a2, a3, a4, a5, -, th, a7, -, a9⟩ := hsteps name hn
  have a9 := a9 hgood
  obtain ⟨ej, th', b1, -, b3, b4⟩ := k3 name hn
  rw [a2] at b1
  injection b1 with b1
  have hth := rowEjecta_unique b3 a7
  subst hth
  refine ⟨table, _, _, th', a3, a1, a2, b3, ?_⟩
  rintro r hr q hq ⟨ns, m1, m2, m3⟩
  obtain ⟨n0, n1, n2, n3, n4⟩ := hpl q hq
  have hne : ns ≠ [] := List.ne_nil_of_mem m3
  have hlab : ∀ w, ',' ∉ w.toList → q.rest.crater.cname ≠ w → r.label ≠ w := by
    intro w hw hnw e
    have := join_one hne m1 hw (m2.symm.trans e)
    rw [this, List.mem_singleton] at m3
    exact hnw m3
  -- every timestep with this label is the one nearest to the age of the crater
  have hnear : ∀ (i : Nat) st, steps[i]? = some st → st.src = r.label → Nearest time q.age i := by
    intro i st hi e
    rw [a9 i st hi, m2] at e
    have h0 : Sources RunCfg.rtol c.thickness_min time df th' i ≠ [] := by
      intro h0
      rw [h0] at e
      exact hlab "" (by decide) n0 (m2.trans e.symm)
    have hS : ∀ n ∈ Sources RunCfg.rtol c.thickness_min time df th' i, ',' ∉ n.toList := by
      intro n hnm
      unfold Sources at hnm
      obtain ⟨p, p1, rfl⟩ := List.mem_map.1 hnm
      have p1' : (p.1, p.2) ∈ df.zip th' := List.mem_of_mem_filter p1
      exact (hpl p.1 (List.of_mem_zip p1').1).2.1
    rw [← join_inj h0 hne hS m1 e] at m3
    unfold Sources at m3
    obtain ⟨p, p1, p2⟩ := List.mem_map.1 m3
    obtain ⟨p1, p3⟩ := List.mem_filter.1 p1
    have p1' : (p.1, p.2) ∈ df.zip th' := p1
    have e : p.1 = q := List.inj_on_of_nodup_map hdn (List.of_mem_zip p1').1 hq p2
    obtain ⟨-, r2, -⟩ := of_decide_eq_true p3
    rw [← e]; exact r2
  obtain ⟨st, s1, s2, s3, s4, s5⟩ := C179_table _ _ _ _ steps table (by rw [a4]; exact hl2) a5 r hr
    (hlab "Ice" (by decide) n2) (hlab "Minor source(s)" (by decide) n3) (hlab "Formation age" (by decide) n4) (by
      intro x hx y hy ex ey
      obtain ⟨i, hi⟩ := List.mem_iff_getElem?.1 hx
      obtain ⟨j, hj⟩ := List.mem_iff_getElem?.1 hy
      have hij := nearest_unique (hnear i x hi ex) (hnear j y hj ey)
      rw [hij, hj] at hi
      injection hi with hi
      rw [hi])
  obtain ⟨i, hi⟩ := List.mem_iff_getElem?.1 s1
  have hej : (steps.map (·.ejecta))[i]? = some r.ejecta := by rw [List.getElem?_map, hi, ← s5]; rfl
  refine ⟨i, hnear i st hi s2, by rw [← a4, List.getElem?_map, hi, ← s3]; rfl,
    by rw [List.getElem?_map, hi, ← s4]; rfl, hej, ?_, b4 i _ (by rw [← b1]; exact hej)⟩
  rw [← s2, a9 i st hi]

theorem sum_filter_of_zero {α : Type} (f : α → ℝ) (p p' : α → Bool) (l : List α) (h1 : ∀ a ∈ l, p' a = true → p a = true)
    (h2 : ∀ a ∈ l, p a = true → p' a = false → f a = 0) :
    ((l.filter p).map f).sum = ((l.filter p').map f).sum := by
  induction l with
  | nil => rfl
  | cons a l ih =>
    have ih := ih (fun a ha => h1 a (List.mem_cons_of_mem _ ha)) (fun a ha => h2 a (List.mem_cons_of_mem _ ha))
    have e1 := h1 a List.mem_cons_self
    have e2 := h2 a List.mem_cons_self
    cases hp : p a <;> cases hq : p' a
    · rw [List.filter_cons_of_neg (by simp [hp]), List.filter_cons_of_neg (by simp [hq]), ih]
    · rw [e1 hq] at hp; cases hp
    · rw [List.filter_cons_of_pos hp, List.filter_cons_of_neg (by simp [hq]), List.map_cons, List.sum_cons, e2 hp hq,
        zero_add, ih]
    · rw [List.filter_cons_of_pos hp, List.filter_cons_of_pos hq, List.map_cons, List.map_cons, List.sum_cons,
        List.sum_cons, ih]

open Classical in
/-- **C179** every run on the shipped files with the default ejecta scaling, whatever the seed: the ejecta of a layer that names
a crater are those of the craters and basins it names and of no other. -/
theorem C179_shipped (nk : List (ℝ × ℝ)) (sortAges : CraterTable → CraterTable) (sortNk : List (ℝ × ℝ) → List (ℝ × ℝ))
    (setOrder : List (List Char) → List (List Char)) (g : Gen σ) (hg : LawfulGen g) (hs : Spec.SortDesc sortAges) (c : RunCfg)
    (hc : PhysicalCfg c) (hd : PhysicalData c (shippedData nk sortAges sortNk setOrder))
    (hr : Runnable c (shippedData nk sortAges sortNk setOrder)) (he : c.ej = EjCfg.default)
    (hn : ∀ n ∈ c.coldtrap_names, n ∈ (RunCfg.default 1).coldtrap_names)
    (hmin' : c.thickness_min ≤ 0.001) (hdt : 0 < c.timestep) (hts : c.timestep < c.timestart)
    (hspan : c.timestep ≤ c.timestart - c.timeend) :
    ∃ out df s, runMain g c (shippedData nk sortAges sortNk setOrder) = .ok out ∧
      craterBasinList g c (shippedData nk sortAges sortNk setOrder) (g.init c.seed) = .ok (df, s) ∧
      ∀ name ∈ c.coldtrap_names, ∃ table th, out.strat.get name = .ok table ∧
        List.Forall₂ (RowEjecta c df name) df th ∧
        ∀ r ∈ table, (∃ q ∈ df, Named q.rest.crater.cname r) →
          r.ejecta = (((df.zip th).filter (fun p => decide (Named p.1.rest.crater.cname r))).map (·.2)).sum := by
  obtain ⟨out, hout⟩ := C72_returns g hg c _ hc hd hr
  have hnames : (((shippedData nk sortAges sortNk setOrder).craters ++
      (shippedData nk sortAges sortNk setOrder).basins).map (·.cname)).Nodup := by
    have := file_names.1
    simp only [shippedData, List.map_append, List.map_map, Function.comp_def] at this ⊢
    exact this
  obtain ⟨df, s, time, h1, h2, h3⟩ := C179_run g hg c _ hc hd hr.nodup hdt hts hspan (shipped_plain _ _ _ _) hnames out hout
  refine ⟨out, df, s, hout, h1, ?_⟩
  intro name hname
  obtain ⟨table, ice, ej, th, t1, -, -, t4, t5⟩ := h3 name hname
  refine ⟨table, th, t1, t4, ?_⟩
  rintro r hrm ⟨q, hq, hqn⟩
  obtain ⟨i, -, -, -, -, i5, i6⟩ := t5 r hrm q hq hqn
  have hpl : ∀ q ∈ df, PlainName q.rest.crater.cname := by
    intro q hq
    obtain ⟨r, r1, r2⟩ := df_names g c _ hd.sorted df _ _ h1 q hq
    rw [← r2]; exact shipped_plain _ _ _ _ r r1
  have hdn := table_names_nodup g hg c _ hd.sorted hnames df _ _ h1
  rw [i6]
  apply sum_filter_of_zero
  · rintro p hp hnm
    obtain ⟨ns, m1, m2, m3⟩ := of_decide_eq_true hnm
    have p1' : (p.1, p.2) ∈ df.zip th := hp
    have hpd := (List.of_mem_zip p1').1
    have hne : ns ≠ [] := List.ne_nil_of_mem m3
    have h0 : Sources RunCfg.rtol c.thickness_min time df th i ≠ [] := by
      intro h0
      rw [h0] at i5
      have := join_one hne m1 (by decide) (m2.symm.trans i5)
      rw [this, List.mem_singleton] at m3
      exact (hpl _ hpd).1 m3
    have hS : ∀ n ∈ Sources RunCfg.rtol c.thickness_min time df th i, ',' ∉ n.toList := by
      intro n hnm
      unfold Sources at hnm
      obtain ⟨p, p1, rfl⟩ := List.mem_map.1 hnm
      have p1' : (p.1, p.2) ∈ df.zip th := List.mem_of_mem_filter p1
      exact (hpl p.1 (List.of_mem_zip p1').1).2.1
    rw [join_inj hne h0 m1 hS (m2.symm.trans i5)] at m3
    unfold Sources at m3
    obtain ⟨p', k1, k2⟩ := List.mem_map.1 m3
    obtain ⟨k1, k3⟩ := List.mem_filter.1 k1
    have k1' : (p'.1, p'.2) ∈ df.zip th := k1
    have e : p'.1 = p.1 := List.inj_on_of_nodup_map hdn (List.of_mem_zip k1').1 hpd k2
    obtain ⟨r1, r2, -⟩ := of_decide_eq_true k3
    rw [e] at r1 r2
    exact decide_eq_true ⟨r1, r2⟩
  · rintro p hp hin hnot
    have p1' : (p.1, p.2) ∈ df.zip th := hp
    have hpd := (List.of_mem_zip p1').1
    obtain ⟨a1, a2⟩ := C113_thickness nk sortAges sortNk setOrder g hg hs c hc hd hr he hn df _ s h1 p.1 hpd name hname p.2
      ((List.forall₂_iff_zip.1 t4).2 p1')
    by_contra hne
    have hx : c.thickness_min < p.2 := by
      by_cases hre : InReach p.1.rest.crater.cname name
      · have := a1 hre
        linarith
      · exact absurd (a2 hre) hne
    refine (of_decide_eq_false hnot) ⟨Sources RunCfg.rtol c.thickness_min time df th i, ?_, i5, ?_⟩
    · intro n hnm
      unfold Sources at hnm
      obtain ⟨p, p1, rfl⟩ := List.mem_map.1 hnm
      have p1' : (p.1, p.2) ∈ df.zip th := List.mem_of_mem_filter p1
      exact (hpl p.1 (List.of_mem_zip p1').1).2.1
    · obtain ⟨r1, r2⟩ := of_decide_eq_true hin
      unfold Sources
      exact List.mem_map.2 ⟨p, List.mem_filter.2 ⟨hp, decide_eq_true ⟨r1, r2, hx⟩⟩, rfl⟩

/-- C179 holds for every seed of the default configuration. -/
example (seed : Int) := C179_shipped [] sortDesc id id constGen constGen_lawful sortDesc_spec
  (RunCfg.default seed) (default_physical seed) (default_data _ _ _ _ sortDesc_spec seed)
  (default_runnable _ _ _ _ seed) rfl (fun _ h => h) (by norm_num [RunCfg.default])
  (by norm_num [RunCfg.default]) (by norm_num [RunCfg.default]) (by norm_num [RunCfg.default])

/-- C179 applies to every completed run of the default configuration. -/
example (seed : Int) (out : CsvOut)
    (hout : runMain constGen (RunCfg.default seed) (shippedData [] sortDesc id id) = .ok out) :=
  C179_run constGen constGen_lawful _ _ (default_physical seed) (default_data [] sortDesc id id sortDesc_spec seed)
    (default_runnable [] sortDesc id id seed).nodup
    (by norm_num [RunCfg.default]) (by norm_num [RunCfg.default])
    (by norm_num [RunCfg.default]) (shipped_plain _ _ _ _) (by
      have := file_names.1
      simp only [shippedData, List.map_append, List.map_map, Function.comp_def] at this ⊢
      exact this) out hout

/-- C179 on a table: two layers with ejecta, and the ice between them in a layer of its own. -/
example : ∃ out, makeStratCol (0.1 : ℝ) 0 false 0 [⟨3, 5, 2, "A"⟩, ⟨2, 7, 0, ""⟩, ⟨1, 1, 4, "B"⟩] = .ok out ∧
    (∃ r ∈ out, r.label = "B") ∧ ∀ r ∈ out, r.label = "B" → r.ice = 1 ∧ r.ejecta = 4 ∧ r.time = 1 := by
  refine ⟨_, rfl, (layers_labelled (0.1 : ℝ) 0 0 false [⟨3, 5, 2, "A"⟩, ⟨2, 7, 0, ""⟩, ⟨1, 1, 4, "B"⟩] _ rfl "B" (by decide)
    (by decide) (by decide) (by decide)).2 ⟨⟨1, 1, 4, "B"⟩, by simp, rfl, by norm_num, by simp⟩, ?_⟩
  intro r hr hl
  obtain ⟨s, s1, s2, s3, s4, s5⟩ := C179_table (0.1 : ℝ) 0 0 false [⟨3, 5, 2, "A"⟩, ⟨2, 7, 0, ""⟩, ⟨1, 1, 4, "B"⟩] _
    (by norm_num) rfl r hr (by rw [hl]; decide) (by rw [hl]; decide) (by rw [hl]; decide) (by rw [hl]; simp)
  rw [hl] at s2
  simp only [List.mem_cons, List.not_mem_nil, or_false] at s1
  rcases s1 with rfl | rfl | rfl
  · exact absurd s2 (by decide)
  · exact absurd s2 (by decide)
  · exact ⟨s4.symm, s5.symm, s3.symm⟩

end MoonPIES
