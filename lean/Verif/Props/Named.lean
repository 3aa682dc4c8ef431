import Verif.Props.LayerCount
import Verif.Props.LeftOut
import Verif.Props.AfterAge
import Verif.Lemmas.RenameTable

/-!
# C177: which craters the layers of a table name
-/

namespace MoonPIES

open Spec

/-- Spec: a layer names a crater: the crater is one of the names its label is made of. -/
def Spec.Named (n : String) (r : StratRow ℝ) : Prop :=
  ∃ ns : List String, (∀ m ∈ ns, ',' ∉ m.toList) ∧ r.label = joinComma ns ∧ n ∈ ns

theorem join_inj {l l' : List String} (hl : l ≠ []) (hl' : l' ≠ []) (h : ∀ n ∈ l, ',' ∉ n.toList)
    (h' : ∀ n ∈ l', ',' ∉ n.toList) (e : joinComma l = joinComma l') : l = l' := by
  have h1 := split_join l hl h
  rw [e, split_join l' hl' h'] at h1
  exact (List.map_injective_iff.2 (fun a b => String.toList_inj.1)) h1.symm

theorem join_one {l : List String} {w : String} (hl : l ≠ []) (h : ∀ n ∈ l, ',' ∉ n.toList) (hw : ',' ∉ w.toList)
    (e : joinComma l = w) : l = [w] := by
  refine join_inj hl (by simp) h (by simpa using hw) ?_
  rw [e]; rfl

theorem mem_collapse (x : String) : ∀ l : List String, x ∈ collapse l ↔ x ∈ l
  | [] => by simp [collapse]
  | [a] => by simp [collapse]
  | a :: b :: l => by
    have ih := mem_collapse x (b :: l)
    unfold collapse
    by_cases h : a = b
    · rw [if_pos h, ih, h]
      simp
    · rw [if_neg h, List.mem_cons, ih, List.mem_cons (a := x) (b := a)]

/-- The layers with a label that is not one of the fixed ones. -/
theorem layers_labelled (thickMin tol age : ℝ) (saa : Bool) (steps : List (Step ℝ)) (out : List (StratRow ℝ))
    (h : makeStratCol thickMin tol saa age steps = .ok out) (l : String) (h0 : l ≠ "") (h1 : l ≠ "Ice")
    (h2 : l ≠ "Minor source(s)") (h3 : l ≠ "Formation age") :
    (∀ r ∈ out, r.label = l → ∃ s ∈ steps, s.time = r.time ∧ s.src = l ∧ thickMin < s.ejecta ∧
      (saa = true → s.time < age + |age| * tol)) ∧
    ((∃ s ∈ steps, s.src = l ∧ thickMin < s.ejecta ∧ (saa = true → s.time < age + |age| * tol)) →
      ∃ r ∈ out, r.label = l) := by
  obtain ⟨pre, ho, hpre⟩ := makeStratCol_ok h
  rw [dropUnlabelled_tableRow] at ho
  have hrow : out.map StratRow.row = mergeAdjacent (pre ++ (steps.filter (fun s => decide (saa = true →
      s.time < age + |age| * tol))).filterMap (tableRow thickMin)) := by rw [ho, addDepthPct_rows]
  have hnot : ∀ r ∈ pre, r.label ≠ l := by
    rcases hpre with ⟨-, rfl⟩ | ⟨-, s, rest, -, rfl⟩
    · simp
    · intro r hr
      rw [List.mem_singleton] at hr
      subst hr
      exact fun e => h3 e.symm
  constructor
  · intro r hr hl
    have hm : r.row ∈ mergeAdjacent (pre ++ (steps.filter (fun s => decide (saa = true →
      s.time < age + |age| * tol))).filterMap (tableRow thickMin)) := by
      rw [← hrow]; exact List.mem_map_of_mem hr
    obtain ⟨q, q1, q2, q3⟩ := isMerge_mem (C20_merge_spec _) _ hm
    rcases List.mem_append.1 q1 with q1 | q1
    · exact absurd (q2.symm.trans hl) (hnot q q1)
    · obtain ⟨s, s1, s2⟩ := List.mem_filterMap.1 q1
      obtain ⟨s1, s3⟩ := List.mem_filter.1 s1
      unfold tableRow at s2
      obtain ⟨lab, s4, rfl⟩ := Option.map_eq_some_iff.1 s2
      have hlab : lab = l := q2.symm.trans hl
      subst hlab
      rcases (rowLabel_spec _ _ _).1 s4 with ⟨a, b, e⟩ | ⟨a, b, e⟩ | ⟨a, b, e⟩
      · exact ⟨s, s1, q3.symm, e.symm, a, of_decide_eq_true s3⟩
      · exact absurd e h2
      · exact absurd e h1
  · rintro ⟨s, s1, s2, s3, s4⟩
    have hl : rowLabel thickMin s = some l := by
      rw [rowLabel_spec]
      exact Or.inl ⟨s3, by rw [s2]; exact h0, s2.symm⟩
    have hm : l ∈ (mergeAdjacent (pre ++ (steps.filter (fun s => decide (saa = true →
      s.time < age + |age| * tol))).filterMap (tableRow thickMin))).map (·.label) := by
      rw [(C20_labels _).1, mem_collapse]
      refine List.mem_map.2 ⟨⟨s.time, s.ice, s.ejecta, l⟩, List.mem_append_right _ (List.mem_filterMap.2
        ⟨s, List.mem_filter.2 ⟨s1, decide_eq_true s4⟩, ?_⟩), rfl⟩
      unfold tableRow
      rw [hl]; rfl
    rw [← hrow, List.map_map] at hm
    obtain ⟨r, r1, r2⟩ := List.mem_map.1 hm
    exact ⟨r, r1, r2⟩

/-- Below the mark of the formation age no two layers have one time. -/
theorem layer_times (thickMin tol age : ℝ) (saa : Bool) (steps : List (Step ℝ)) (out : List (StratRow ℝ))
    (hdec : (steps.map (·.time)).Pairwise (· > ·)) (hsrc : ∀ s ∈ steps, s.src ≠ "Formation age")
    (h : makeStratCol thickMin tol saa age steps = .ok out) :
    ∃ top layers, out = top ++ layers ∧ (∀ r ∈ top, r.label = "Formation age") ∧
      (layers.map (·.time)).Pairwise (· > ·) := by
  cases saa with
  | true =>
    obtain ⟨r, layers, s0, rest, h1, -, h2, -, -, -, h3, -⟩ := C24_time_order thickMin tol age steps hdec hsrc out h
    exact ⟨[r], layers, h1, by simpa using h2, h3⟩
  | false =>
    obtain ⟨pre, ho, hpre⟩ := makeStratCol_ok h
    rcases hpre with ⟨-, rfl⟩ | ⟨h', -⟩
    · refine ⟨[], out, rfl, by simp, ?_⟩
      have hrow : out.map StratRow.row = mergeAdjacent (dropUnlabelled (labelRows thickMin
          (steps.filter (fun s => decide (false = true → s.time < age + |age| * tol))))) := by
        rw [ho, addDepthPct_rows]; rfl
      have ht : out.map (·.time) = (out.map StratRow.row).map (·.time) := by rw [List.map_map]; rfl
      rw [ht, hrow]
      unfold mergeAdjacent
      rw [groupRuns_eq]
      refine hdec.sublist ((runs_times _).trans ((dropUnlabelled_times _ _).trans ?_))
      exact List.filter_sublist.map _
    · cases h'

theorem one_layer {P : StratRow ℝ → Prop} {top layers : List (StratRow ℝ)} (htop : ∀ r ∈ top, ¬ P r)
    (hdec : (layers.map (·.time)).Pairwise (· > ·))
    (hP : ∀ r ∈ top ++ layers, ∀ r' ∈ top ++ layers, P r → P r' → r.time = r'.time) (r : StratRow ℝ)
    (hr : r ∈ top ++ layers) (hp : P r) :
    ∃ above below, top ++ layers = above ++ r :: below ∧ ∀ r' ∈ above ++ below, ¬ P r' := by
  have hr' : r ∈ layers := by
    rcases List.mem_append.1 hr with hr | hr
    · exact absurd hp (htop r hr)
    · exact hr
  obtain ⟨a, b, e⟩ := List.append_of_mem hr'
  refine ⟨top ++ a, b, by rw [e]; simp, ?_⟩
  rw [e, List.map_append, List.map_cons, List.pairwise_append] at hdec
  obtain ⟨-, d2, d3⟩ := hdec
  rw [List.pairwise_cons] at d2
  intro r' hm hp'
  have heq := hP r hr r' (by rw [e]; simp only [List.mem_append, List.mem_cons] at hm ⊢; tauto) hp hp'
  simp only [List.mem_append] at hm
  rcases hm with (hm | hm) | hm
  · exact htop r' hm hp'
  · have := d3 _ (List.mem_map_of_mem hm) r.time (by simp)
    simp only [gt_iff_lt] at this
    rw [heq] at this
    exact lt_irrefl _ this
  · have := d2.1 _ (List.mem_map_of_mem hm)
    simp only [gt_iff_lt] at this
    rw [heq] at this
    exact lt_irrefl _ this

variable {σ : Type}

/-- The names of the table of a run are those of the files. -/
theorem table_names_nodup (g : Gen σ) (hg : LawfulGen g) (c : RunCfg) (d : RunData) (hs : Spec.SortDesc d.sortAges)
    (hnames : ((d.craters ++ d.basins).map (·.cname)).Nodup) (df : CraterTable) (s s' : σ)
    (h : craterBasinList g c d s = .ok (df, s')) : (df.map (fun r => r.rest.crater.cname)).Nodup := by
  obtain ⟨z, mid, h3, h4⟩ := craterBasinList_inv g c d _ _ _ h
  have hp : df.Perm mid := by rw [h4]; exact (hs mid).1
  rw [(hp.map _).nodup_iff]
  have hrest := newAges_rest _ _ _ _ _ h3
  have e : mid.map (fun r => r.rest.crater.cname) = (mid.map (·.rest)).map (fun r => r.crater.cname) := by
    rw [List.map_map]; rfl
  rw [e, hrest, List.map_map]
  have := rawTable_cnames g hg c d s
  rw [show (fun r : CraterCols => r.crater.cname) ∘ (fun r : CraterAge ℝ CraterCols => r.rest) =
    fun r => r.rest.crater.cname from rfl, this]
  exact hnames

open Classical in
/-- **C177** every run that returns, with plain and distinct names and a descending time array: a crater or basin is named in the
table of a cold trap exactly if it leaves more ejecta there than the least thickness shown, at a time of the run and, with
`strat_after_age`, since the cold trap formed. It is then named in one layer only, which has that time. No cold trap is
named in its own table. -/
theorem C177_run (g : Gen σ) (hg : LawfulGen g) (c : RunCfg) (d : RunData) (hc : PhysicalCfg c)
    (hd : PhysicalData c d) (hl : Lunar c d) (hnd : c.coldtrap_names.Nodup) (hmin : 0 ≤ c.thickness_min)
    (hdt : 0 < c.timestep) (hts : c.timestep < c.timestart) (hspan : c.timestep ≤ c.timestart - c.timeend)
    (hplain : ∀ r ∈ d.craters ++ d.basins, PlainName r.cname)
    (hnames : ((d.craters ++ d.basins).map (·.cname)).Nodup) (out : CsvOut) (hrun : runMain g c d = .ok out) :
    ∃ df s time, craterBasinList g c d (g.init c.seed) = .ok (df, s) ∧
      getTimeArray c.timestart c.timeend c.timestep = .ok time ∧
      ∀ name ∈ c.coldtrap_names, ∃ trap ∈ df, trap.rest.crater.cname = name ∧
        ∃ table, out.strat.get name = .ok table ∧ (∀ r ∈ table, ¬ Named name r) ∧
        ∀ q ∈ df, ∃ x, RowEjecta c df name q x ∧
          ((∃ r ∈ table, Named q.rest.crater.cname r) ↔ c.thickness_min < x ∧ InRange RunCfg.rtol time q.age ∧
            ∃ i t, Nearest time q.age i ∧ time[i]? = some t ∧
              (c.strat_after_age = true → t < trap.age + |trap.age| * RunCfg.rtol)) ∧
          ∀ r ∈ table, Named q.rest.crater.cname r →
            (∃ i, Nearest time q.age i ∧ time[i]? = some r.time) ∧
            ∃ above below, table = above ++ r :: below ∧ ∀ r' ∈ above ++ below, ¬ Named q.rest.crater.cname r' := by
  obtain ⟨df, s, time, hdf, htime, hsteps⟩ := run_steps g hg c d hc hd hnd out hrun
  obtain ⟨df', s', time', k1, k2, k3⟩ := C75_run_ejecta g hg c d hc hd hnd out hrun
  rw [hdf] at k1
  injection k1 with k1
  injection k1 with k1 _
  subst k1
  rw [htime] at k2
  injection k2 with k2
  subst k2
  obtain ⟨tl, hl1, -, -, hl2, -⟩ := C19_shape_partial c.timestart c.timeend c.timestep hdt hts hspan
  rw [htime] at hl1
  injection hl1 with hl1
  subst hl1
  have hgood : ∀ r ∈ d.craters ++ d.basins, GoodName r.cname := fun r hr => plain_good (hplain r hr)
  have hpl : ∀ q ∈ df, PlainName q.rest.crater.cname := by
    intro q hq
    obtain ⟨r, r1, r2⟩ := df_names g c d hd.sorted df _ _ hdf q hq
    rw [← r2]; exact hplain r r1
  have hdn := table_names_nodup g hg c d hd.sorted hnames df _ _ hdf
  refine ⟨df, s, time, hdf, htime, ?_⟩
  intro name hn
  obtain ⟨trap, tm, tn, steps, table, -, a2, a3, a4, a5, -, th, a7, -, a9⟩ := hsteps name hn
  have a9 := a9 hgood
  obtain ⟨ej, th', b1, -, b3, b4⟩ := k3 name hn
  rw [a2] at b1
  injection b1 with b1
  have hth := rowEjecta_unique b3 a7
  subst hth
  have hS : ∀ i, ∀ n ∈ Sources RunCfg.rtol c.thickness_min time df th' i, PlainName n := by
    intro i n hnm
    unfold Sources at hnm
    obtain ⟨q, q1, rfl⟩ := List.mem_map.1 hnm
    have q1' : (q.1, q.2) ∈ df.zip th' := List.mem_of_mem_filter q1
    exact hpl q.1 (List.of_mem_zip q1').1
  -- what the label of the sources of a time is not
  have hfix : ∀ i, ∀ w, w = "Ice" ∨ w = "Minor source(s)" ∨ w = "Formation age" →
      joinComma (Sources RunCfg.rtol c.thickness_min time df th' i) ≠ w := by
    intro i w hw e
    by_cases h0 : Sources RunCfg.rtol c.thickness_min time df th' i = []
    · rw [h0] at e
      rcases hw with rfl | rfl | rfl <;> exact absurd e (by decide)
    · have hone := join_one h0 (fun n hn => (hS i n hn).2.1) (by rcases hw with rfl | rfl | rfl <;> decide) e
      have := hS i w (by rw [hone]; simp)
      obtain ⟨-, -, p1, p2, p3⟩ := this
      tauto
  have hnamed : ∀ n, PlainName n → ∀ r ∈ table, Named n r → ∃ (i : Nat) (st : Step ℝ), steps[i]? = some st ∧
      st.time = r.time ∧ time[i]? = some r.time ∧ n ∈ Sources RunCfg.rtol c.thickness_min time df th' i ∧
      (c.strat_after_age = true → r.time < trap.age + |trap.age| * RunCfg.rtol) := by
    rintro n ⟨n0, n1, n2, n3, n4⟩ r hr ⟨ns, m1, m2, m3⟩
    have hne : ns ≠ [] := List.ne_nil_of_mem m3
    have hlab : ∀ w, ',' ∉ w.toList → n ≠ w → r.label ≠ w := by
      intro w hw hnw e
      have := join_one hne m1 hw (m2.symm.trans e)
      rw [this, List.mem_singleton] at m3
      exact hnw m3
    have hl0 : r.label ≠ "" := hlab "" (by decide) n0
    obtain ⟨st, s1, s2, s3, s4, s5⟩ := (layers_labelled _ _ _ _ _ _ a5 r.label hl0 (hlab "Ice" (by decide) n2)
      (hlab "Minor source(s)" (by decide) n3) (hlab "Formation age" (by decide) n4)).1 r hr rfl
    obtain ⟨i, hi⟩ := List.mem_iff_getElem?.1 s1
    refine ⟨i, st, hi, s2, ?_, ?_, ?_⟩
    · rw [← a4, List.getElem?_map, hi, ← s2]; rfl
    · have e := a9 i st hi
      rw [s3, m2] at e
      have h0 : Sources RunCfg.rtol c.thickness_min time df th' i ≠ [] := by
        intro h0
        rw [h0] at e
        exact hl0 (m2.trans e)
      rw [← join_inj hne h0 m1 (fun n hn => (hS i n hn).2.1) e]
      exact m3
    · rw [← s2]; exact s5
  have hsource : ∀ q ∈ df, ∀ x, RowEjecta c df name q x → ∀ i,
      (q.rest.crater.cname ∈ Sources RunCfg.rtol c.thickness_min time df th' i ↔
        c.thickness_min < x ∧ InRange RunCfg.rtol time q.age ∧ Nearest time q.age i) := by
    intro q hq x hx i
    obtain ⟨k, hk⟩ := List.mem_iff_getElem?.1 hq
    obtain ⟨y, hy⟩ : ∃ y, th'[k]? = some y := by
      have : k < th'.length := by rw [← b3.length_eq]; exact (List.getElem?_eq_some_iff.1 hk).1
      exact ⟨_, List.getElem?_eq_getElem this⟩
    have hy' := (forall₂_iff_getElem?.1 b3).2 k _ _ hk hy
    have hxy : [x] = [y] := rowEjecta_unique (List.Forall₂.cons hx List.Forall₂.nil)
      (List.Forall₂.cons hy' List.Forall₂.nil)
    injection hxy with hxy _
    subst hxy
    unfold Sources
    constructor
    · intro hm
      obtain ⟨p, p1, p2⟩ := List.mem_map.1 hm
      obtain ⟨p1, p3⟩ := List.mem_filter.1 p1
      have p1' : (p.1, p.2) ∈ df.zip th' := p1
      have e : p.1 = q := List.inj_on_of_nodup_map hdn (List.of_mem_zip p1').1 hq p2
      obtain ⟨r1, r2, r3⟩ := of_decide_eq_true p3
      have e2 : [p.2] = [x] := rowEjecta_unique (c := c) (df := df) (name := name) (l := [q])
        (List.Forall₂.cons (e ▸ (List.forall₂_iff_zip.1 b3).2 p1') List.Forall₂.nil)
        (List.Forall₂.cons hx List.Forall₂.nil)
      injection e2 with e2 _
      rw [e] at r1 r2
      exact ⟨e2 ▸ r3, r1, r2⟩
    · rintro ⟨h1, h2, h3⟩
      refine List.mem_map.2 ⟨(q, x), List.mem_filter.2 ⟨mem_zip_get.2 ⟨k, hk, hy⟩, decide_eq_true ⟨h2, h3, h1⟩⟩, rfl⟩
  have hone : ∀ q ∈ df, ∀ x, RowEjecta c df name q x → ∀ r ∈ table, Named q.rest.crater.cname r →
      ∃ i, Nearest time q.age i ∧ time[i]? = some r.time := by
    intro q hq x hx r hr hnm
    obtain ⟨i, st, -, -, i3, i4, -⟩ := hnamed _ (hpl q hq) r hr hnm
    exact ⟨i, ((hsource q hq x hx i).1 i4).2.2, i3⟩
  refine ⟨trap, tm, tn, table, a3, ?_, ?_⟩
  · intro r hr hnm
    rw [← tn] at hnm
    obtain ⟨i, st, -, -, -, i4, -⟩ := hnamed _ (hpl trap tm) r hr hnm
    have hx : RowEjecta c df name trap 0 := ⟨none, by unfold coldtrapDist; simp [tn], C36_missing_distance _ _⟩
    have := ((hsource trap tm 0 hx i).1 i4).1
    linarith
  · intro q hq
    obtain ⟨k, hk⟩ := List.mem_iff_getElem?.1 hq
    have hkl : k < th'.length := by rw [← b3.length_eq]; exact (List.getElem?_eq_some_iff.1 hk).1
    have hx := (forall₂_iff_getElem?.1 b3).2 k _ _ hk (List.getElem?_eq_getElem hkl)
    refine ⟨_, hx, ⟨?_, ?_⟩, ?_⟩
    · rintro ⟨r, hr, hnm⟩
      obtain ⟨i, st, -, -, i3, i4, i5⟩ := hnamed _ (hpl q hq) r hr hnm
      obtain ⟨j1, j2, j3⟩ := (hsource q hq _ hx i).1 i4
      exact ⟨j1, j2, i, _, j3, i3, i5⟩
    · rintro ⟨h1, h2, i, t, h3, h4, h5⟩
      have hi : i < steps.length := by
        have := (List.getElem?_eq_some_iff.1 h4).1
        rw [← a4, List.length_map] at this
        exact this
      have hst := List.getElem?_eq_getElem hi
      have htt : steps[i].time = t := by
        rw [← a4, List.getElem?_map, hst] at h4
        injection h4
      have hmem := (hsource q hq _ hx i).2 ⟨h1, h2, h3⟩
      have hne : Sources RunCfg.rtol c.thickness_min time df th' i ≠ [] := List.ne_nil_of_mem hmem
      have hsrc := a9 i _ hst
      have hej : c.thickness_min < steps[i].ejecta := by
        have e := b4 i steps[i].ejecta (by rw [← b1, List.getElem?_map, hst]; rfl)
        rw [e]
        refine lt_of_lt_of_le h1 (List.single_le_sum ?_ _ ?_)
        · intro y hy
          obtain ⟨p, p1, rfl⟩ := List.mem_map.1 hy
          have p1' : (p.1, p.2) ∈ df.zip th' := List.mem_of_mem_filter p1
          exact C85_row_ejecta_partial g c d hc hd.sorted hl df _ _ hdf name p.1 (List.of_mem_zip p1').1 p.2
            ((List.forall₂_iff_zip.1 b3).2 p1')
        · exact List.mem_map.2 ⟨(q, th'[k]), List.mem_filter.2 ⟨mem_zip_get.2 ⟨k, hk, List.getElem?_eq_getElem hkl⟩,
            decide_eq_true ⟨h2, h3⟩⟩, rfl⟩
      have h0 : joinComma (Sources RunCfg.rtol c.thickness_min time df th' i) ≠ "" := by
        intro e
        have := join_one hne (fun n hn => (hS i n hn).2.1) (by decide) e
        exact (hS i "" (by rw [this]; simp)).1 rfl
      obtain ⟨r, r1, r2⟩ := (layers_labelled _ _ _ _ _ _ a5 _ h0 (hfix i _ (Or.inl rfl)) (hfix i _ (Or.inr (Or.inl rfl)))
        (hfix i _ (Or.inr (Or.inr rfl)))).2 ⟨steps[i], List.getElem_mem hi, hsrc, hej, fun h => by rw [htt]; exact h5 h⟩
      exact ⟨r, r1, _, fun n hn => (hS i n hn).2.1, r2, hmem⟩
    · intro r hr hnm
      refine ⟨hone q hq _ hx r hr hnm, ?_⟩
      obtain ⟨top, layers, e1, e2, e3⟩ := layer_times _ _ _ _ _ _ (by rw [a4]; exact hl2) (by
        intro st hst
        obtain ⟨i, hi⟩ := List.mem_iff_getElem?.1 hst
        rw [a9 i st hi]
        exact hfix i _ (Or.inr (Or.inr rfl))) a5
      rw [e1] at hr ⊢
      refine one_layer ?_ e3 ?_ r hr hnm
      · rintro f hf ⟨ns, m1, m2, m3⟩
        have := join_one (List.ne_nil_of_mem m3) m1 (by decide) (m2.symm.trans (e2 f hf))
        rw [this, List.mem_singleton] at m3
        exact (hpl q hq).2.2.2.2 m3
      · intro r1 hr1 r2 hr2 n1 n2
        obtain ⟨i, i1, i2⟩ := hone q hq _ hx r1 (by rw [e1]; exact hr1) n1
        obtain ⟨j, j1, j2⟩ := hone q hq _ hx r2 (by rw [e1]; exact hr2) n2
        rw [nearest_unique i1 j1, j2] at i2
        injection i2 with i2
        exact i2.symm

open Classical in
/-- **C177** every run on the shipped files with the default ejecta scaling, whatever the seed: a crater or basin is named in the
table of a cold trap exactly if it is listed for the trap and dated to a time of the run and, with `strat_after_age`, since the
cold trap formed. -/
theorem C177_shipped (nk : List (ℝ × ℝ)) (sortAges : CraterTable → CraterTable) (sortNk : List (ℝ × ℝ) → List (ℝ × ℝ))
    (setOrder : List (List Char) → List (List Char)) (g : Gen σ) (hg : LawfulGen g) (hs : Spec.SortDesc sortAges) (c : RunCfg)
    (hc : PhysicalCfg c) (hd : PhysicalData c (shippedData nk sortAges sortNk setOrder))
    (hl : Lunar c (shippedData nk sortAges sortNk setOrder))
    (hr : Runnable c (shippedData nk sortAges sortNk setOrder)) (he : c.ej = EjCfg.default)
    (hn : ∀ n ∈ c.coldtrap_names, n ∈ (RunCfg.default 1).coldtrap_names) (hmin : 0 ≤ c.thickness_min)
    (hmin' : c.thickness_min ≤ 0.001) (hdt : 0 < c.timestep) (hts : c.timestep < c.timestart)
    (hspan : c.timestep ≤ c.timestart - c.timeend) :
    ∃ out df s time, runMain g c (shippedData nk sortAges sortNk setOrder) = .ok out ∧
      craterBasinList g c (shippedData nk sortAges sortNk setOrder) (g.init c.seed) = .ok (df, s) ∧
      getTimeArray c.timestart c.timeend c.timestep = .ok time ∧
      ∀ name ∈ c.coldtrap_names, ∃ trap ∈ df, trap.rest.crater.cname = name ∧
        ∃ table, out.strat.get name = .ok table ∧ ∀ q ∈ df,
          ((∃ r ∈ table, Named q.rest.crater.cname r) ↔
            InReach q.rest.crater.cname name ∧ InRange RunCfg.rtol time q.age ∧
            ∃ i t, Nearest time q.age i ∧ time[i]? = some t ∧
              (c.strat_after_age = true → t < trap.age + |trap.age| * RunCfg.rtol)) := by
  obtain ⟨out, hout⟩ := C72_returns g hg c _ hc hd hr
  obtain ⟨df, s, time, h1, h2, h3⟩ := C177_run g hg c _ hc hd hl hr.nodup hmin hdt hts hspan (shipped_plain _ _ _ _) (by
    have := file_names.1
    simp only [shippedData, List.map_append, List.map_map, Function.comp_def] at this ⊢
    exact this) out hout
  refine ⟨out, df, s, time, hout, h1, h2, ?_⟩
  intro name hname
  obtain ⟨trap, t1, t2, table, t3, -, t4⟩ := h3 name hname
  refine ⟨trap, t1, t2, table, t3, ?_⟩
  intro q hq
  obtain ⟨x, x1, x2, -⟩ := t4 q hq
  obtain ⟨a1, a2⟩ := C113_thickness nk sortAges sortNk setOrder g hg hs c hc hd hr he hn df _ s h1 q hq name hname x x1
  have hiff : c.thickness_min < x ↔ InReach q.rest.crater.cname name := by
    constructor
    · intro h
      by_contra hno
      rw [a2 hno] at h
      linarith
    · intro h
      have := a1 h
      linarith
  rw [x2, hiff]

/-- C177 holds for every seed of the default configuration. -/
example (seed : Int) := C177_shipped [] sortDesc id id constGen constGen_lawful sortDesc_spec
  (RunCfg.default seed) (default_physical seed) (default_data _ _ _ _ sortDesc_spec seed) (default_lunar _ _ _ _ seed)
  (default_runnable _ _ _ _ seed) rfl (fun _ h => h) (by norm_num [RunCfg.default]) (by norm_num [RunCfg.default])
  (by norm_num [RunCfg.default]) (by norm_num [RunCfg.default]) (by norm_num [RunCfg.default])

/-- C177 applies to every completed run of the default configuration. -/
example (seed : Int) (out : CsvOut)
    (hout : runMain constGen (RunCfg.default seed) (shippedData [] sortDesc id id) = .ok out) :=
  C177_run constGen constGen_lawful _ _ (default_physical seed) (default_data [] sortDesc id id sortDesc_spec seed)
    (default_lunar [] sortDesc id id seed) (default_runnable [] sortDesc id id seed).nodup
    (by norm_num [RunCfg.default]) (by norm_num [RunCfg.default]) (by norm_num [RunCfg.default])
    (by norm_num [RunCfg.default]) (shipped_plain _ _ _ _) (by
      have := file_names.1
      simp only [shippedData, List.map_append, List.map_map, Function.comp_def] at this ⊢
      exact this) out hout

end MoonPIES
