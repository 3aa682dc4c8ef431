import Verif.Props.Richer
import Verif.Props.Reach
import Verif.Lemmas.AgesFig

/-!
# C176: how many layers a table can have
-/

namespace MoonPIES

open Spec

/-- Equal neighbours merged: between any two others there is at most one `x`. -/
theorem collapse_length (x : String) : ∀ l : List String,
    (collapse l).length ≤ 2 * (l.filter (fun a => decide (a ≠ x))).length + (if l.head? = some x then 1 else 0)
  | [] => by simp [collapse]
  | [a] => by
    by_cases h : a = x <;> simp [collapse, h]
  | a :: b :: l => by
    have ih := collapse_length x (b :: l)
    unfold collapse
    by_cases hab : a = b
    · rw [if_pos hab]
      subst hab
      by_cases h : a = x <;> simp [h] at ih ⊢ <;> omega
    · rw [if_neg hab, List.length_cons]
      by_cases h : a = x
      · have hb : b ≠ x := fun e => hab (h.trans e.symm)
        simp [h, hb] at ih ⊢
        omega
      · by_cases hb : b = x <;> simp [h, hb] at ih ⊢ <;> omega

section
variable {K : Type} [Field K] [LinearOrder K] [IsStrictOrderedRing K] [FloorRing K]

omit [Field K] [IsStrictOrderedRing K] [FloorRing K] in
theorem rows_not_ice (thickMin : K) (l : List (Step K)) :
    (((dropUnlabelled (labelRows thickMin l)).map (·.label)).filter (fun a => decide (a ≠ "Ice"))).length ≤
      (l.filter (fun s => decide (thickMin < s.ejecta))).length := by
  induction l with
  | nil => exact le_rfl
  | cons s l ih =>
    by_cases h : thickMin < s.ejecta
    · rw [List.filter_cons_of_pos (by simpa using h), List.length_cons]
      cases hl : rowLabel thickMin s with
      | none =>
        have : dropUnlabelled (labelRows thickMin (s :: l)) = dropUnlabelled (labelRows thickMin l) := by
          simp [labelRows, dropUnlabelled, hl]
        rw [this]; omega
      | some lab =>
        have : dropUnlabelled (labelRows thickMin (s :: l)) =
            ⟨s.time, s.ice, s.ejecta, lab⟩ :: dropUnlabelled (labelRows thickMin l) := by
          simp [labelRows, dropUnlabelled, hl]
        rw [this, List.map_cons, List.filter_cons]
        split
        · rw [List.length_cons]; omega
        · omega
    · rw [List.filter_cons_of_neg (by simpa using h)]
      have hl : rowLabel thickMin s = none ∨ rowLabel thickMin s = some "Ice" := by
        unfold rowLabel
        by_cases hi : thickMin < s.ice <;> simp [h, hi]
      rcases hl with hl | hl
      · have : dropUnlabelled (labelRows thickMin (s :: l)) = dropUnlabelled (labelRows thickMin l) := by
          simp [labelRows, dropUnlabelled, hl]
        rw [this]; exact ih
      · have : dropUnlabelled (labelRows thickMin (s :: l)) =
            ⟨s.time, s.ice, s.ejecta, "Ice"⟩ :: dropUnlabelled (labelRows thickMin l) := by
          simp [labelRows, dropUnlabelled, hl]
        rw [this, List.map_cons, List.filter_cons_of_neg (by simp)]
        exact ih

omit [IsStrictOrderedRing K] in
/-- **C176** a table has at most two layers for each of its timesteps that hold more ejecta than the least thickness shown,
and one more, with or without the mark of the formation age. So a cold trap without ejecta has at most one layer. -/
theorem C176_table (thickMin tol age : K) (saa : Bool) (steps : List (Step K)) (out : List (StratRow K))
    (h : makeStratCol thickMin tol saa age steps = .ok out) :
    out.length ≤ 2 * (steps.filter (fun s => decide (thickMin < s.ejecta ∧
      (saa = true → s.time < age + |age| * tol)))).length + (if saa then 2 else 1) := by
  obtain ⟨pre, ho, hpre⟩ := makeStratCol_ok h
  have hf : (steps.filter (fun s => decide (saa = true → s.time < age + |age| * tol))).filter
      (fun s => decide (thickMin < s.ejecta)) = steps.filter (fun s => decide (thickMin < s.ejecta ∧
      (saa = true → s.time < age + |age| * tol))) := by
    rw [List.filter_filter]
    congr 1
    funext s
    rw [Bool.decide_and]
  have hk := rows_not_ice thickMin (steps.filter (fun s => decide (saa = true → s.time < age + |age| * tol)))
  rw [hf] at hk
  have hlen : out.length = (mergeAdjacent (pre ++ dropUnlabelled (labelRows thickMin
      (steps.filter (fun s => decide (saa = true → s.time < age + |age| * tol)))))).length := by
    rw [ho, ← List.length_map (f := StratRow.row), addDepthPct_rows]
  have hcol := collapse_length "Ice" ((pre ++ dropUnlabelled (labelRows thickMin
      (steps.filter (fun s => decide (saa = true → s.time < age + |age| * tol))))).map (·.label))
  generalize dropUnlabelled (labelRows thickMin (steps.filter (fun s => decide (saa = true →
    s.time < age + |age| * tol)))) = D at hk hlen hcol
  rw [← (C20_labels _).1, List.length_map, ← hlen, List.map_append, List.filter_append, List.length_append] at hcol
  rcases hpre with ⟨rfl, rfl⟩ | ⟨rfl, s, rest, -, rfl⟩
  · simp only [List.map_nil, List.filter_nil, List.length_nil, List.nil_append] at hcol
    rw [if_neg (by decide)]
    split at hcol <;> omega
  · rw [if_neg (by simp)] at hcol
    simp only [List.map_cons, List.map_nil] at hcol
    rw [List.filter_cons_of_pos (by decide)] at hcol
    rw [List.filter_nil, List.length_cons, List.length_nil] at hcol
    rw [if_pos rfl]
    omega

/-- The bound is met: ice, ejecta and ice again below the mark of the formation age. -/
example : (makeStratCol (1 / 10 : ℚ) 0 true 5
    [⟨6, 1, 0, ""⟩, ⟨4, 1, 0, ""⟩, ⟨3, 1, 0, ""⟩, ⟨2, 0, 1, "A"⟩, ⟨1, 1, 0, ""⟩]).map (·.map (·.label)) =
      .ok ["Formation age", "Ice", "A", "Ice"] := by
  decide +kernel

end

open Classical in
/-- Each entry of a list with a property has its own witness in another. -/
theorem own_witness {α : Type} (p : ℝ → Prop) (Z : List α) (B : α → Nat → Prop)
    (hB : ∀ z i j, B z i → B z j → i = j) : ∀ (l : List ℝ) (n : Nat),
    (∀ (i : Nat) x, l[i]? = some x → p x → ∃ z ∈ Z, B z (i + n)) →
    (l.filter (fun x => decide (p x))).length ≤ (Z.filter (fun z => decide (∃ i, n ≤ i ∧ B z i))).length
  | [], _, _ => Nat.zero_le _
  | x :: l, n, h => by
    have ih := own_witness p Z B hB l (n + 1) (by
      intro i y hy hp
      obtain ⟨z, z1, z2⟩ := h (i + 1) y (by simpa using hy) hp
      exact ⟨z, z1, by rwa [show i + (n + 1) = i + 1 + n by omega]⟩)
    have hsub : Z.filter (fun z => decide (∃ i, n + 1 ≤ i ∧ B z i)) =
        (Z.filter (fun z => decide (∃ i, n ≤ i ∧ B z i))).filter (fun z => decide (∃ i, n + 1 ≤ i ∧ B z i)) := by
      rw [List.filter_filter]
      apply List.filter_congr
      intro z _
      rw [← Bool.decide_and]
      apply decide_eq_decide.2
      constructor
      · rintro ⟨i, i1, i2⟩; exact ⟨⟨i, i1, i2⟩, i, by omega, i2⟩
      · exact fun k => k.1
    rw [hsub] at ih
    by_cases hx : p x
    · rw [List.filter_cons_of_pos (by simpa using hx), List.length_cons]
      obtain ⟨z, z1, z2⟩ := h 0 x rfl hx
      rw [Nat.zero_add] at z2
      have : ((Z.filter (fun z => decide (∃ i, n ≤ i ∧ B z i))).filter
          (fun z => decide (∃ i, n + 1 ≤ i ∧ B z i))).length < (Z.filter (fun z => decide (∃ i, n ≤ i ∧ B z i))).length := by
        apply List.length_filter_lt_length_iff_exists.2
        refine ⟨z, List.mem_filter.2 ⟨z1, decide_eq_true ⟨n, le_rfl, z2⟩⟩, ?_⟩
        rw [decide_eq_true_eq]
        rintro ⟨i, i1, i2⟩
        have := hB z _ _ i2 z2
        omega
      omega
    · rw [List.filter_cons_of_neg (by simpa using hx)]
      exact ih.trans (List.length_filter_le _ _)

variable {σ : Type}

open Classical in
/-- **C176** every run that returns: the table of a cold trap has at most two layers for each time at which it gets more
ejecta than the least thickness shown, and there are no more such times than craters and basins that leave ejecta there. -/
theorem C176_run (g : Gen σ) (hg : LawfulGen g) (c : RunCfg) (d : RunData) (hc : PhysicalCfg c)
    (hd : PhysicalData c d) (hnd : c.coldtrap_names.Nodup) (hmin : 0 ≤ c.thickness_min) (out : CsvOut)
    (hrun : runMain g c d = .ok out) :
    ∃ df s, craterBasinList g c d (g.init c.seed) = .ok (df, s) ∧
      ∀ name ∈ c.coldtrap_names, ∃ ej table th, out.ej.get name = .ok ej ∧ out.strat.get name = .ok table ∧
        List.Forall₂ (RowEjecta c df name) df th ∧
        table.length ≤ 2 * (ej.filter (fun x => decide (c.thickness_min < x))).length +
          (if c.strat_after_age then 2 else 1) ∧
        (ej.filter (fun x => decide (c.thickness_min < x))).length ≤ (th.filter (fun x => decide (0 < x))).length := by
  obtain ⟨df, s, time, hdf, htime, hsteps⟩ := run_steps g hg c d hc hd hnd out hrun
  obtain ⟨df', s', time', k1, k2, k3⟩ := C75_run_ejecta g hg c d hc hd hnd out hrun
  rw [hdf] at k1
  injection k1 with k1
  injection k1 with k1 _
  subst k1
  refine ⟨df, s, hdf, ?_⟩
  intro name hn
  obtain ⟨trap, -, -, steps, table, -, a2, a3, -, a5, -⟩ := hsteps name hn
  obtain ⟨ej, th, b1, -, b3, b4⟩ := k3 name hn
  rw [a2] at b1
  injection b1 with b1
  refine ⟨ej, table, th, by rw [a2, b1], a3, b3, ?_, ?_⟩
  · have h := C176_table _ _ _ _ _ _ a5
    have h' : (steps.filter (fun s => decide (c.thickness_min < s.ejecta ∧
        (c.strat_after_age = true → s.time < trap.age + |trap.age| * RunCfg.rtol)))).length ≤
        (ej.filter (fun x => decide (c.thickness_min < x))).length := by
      rw [← b1, List.filter_map, List.length_map, ← List.countP_eq_length_filter, ← List.countP_eq_length_filter]
      apply List.countP_mono_left
      intro st _ hst
      simp only [decide_eq_true_eq, Function.comp] at hst ⊢
      exact hst.1
    omega
  · have hw := own_witness (fun x => c.thickness_min < x)
      ((df.zip th).filter (fun q => decide (0 < q.2)))
      (fun q i => Nearest time' q.1.age i) (fun q i j => nearest_unique) ej 0 (by
        intro i x hx hlt
        have e := b4 i x hx
        by_contra hno
        have : x ≤ 0 := by
          rw [e]
          refine (List.sum_le_card_nsmul _ 0 ?_).trans (by simp)
          intro y hy
          obtain ⟨q, hq, rfl⟩ := List.mem_map.1 hy
          obtain ⟨q1, q2⟩ := List.mem_filter.1 hq
          by_contra hpos
          exact hno ⟨q, List.mem_filter.2 ⟨q1, decide_eq_true (not_le.1 hpos)⟩, (of_decide_eq_true q2).2⟩
        linarith)
    refine hw.trans ((List.length_filter_le _ _).trans (le_of_eq ?_))
    have : th = (df.zip th).map (·.2) := by
      rw [List.map_snd_zip (by rw [b3.length_eq])]
    conv_rhs => rw [this, List.filter_map, List.length_map]
    rfl

/-- C176 on the default configuration, whatever the seed. -/
example (seed : Int) (out : CsvOut)
    (hout : runMain constGen (RunCfg.default seed) (shippedData [] sortDesc id id) = .ok out) :=
  C176_run constGen constGen_lawful _ _ (default_physical seed)
    (default_data [] sortDesc id id sortDesc_spec seed) (default_runnable [] sortDesc id id seed).nodup
    (by norm_num [RunCfg.default]) out hout

/-- Spec: the craters and basins listed for a cold trap. -/
def Spec.reachList (trap : String) : List String :=
  ((craterReach ++ basinReach).filter (fun e => decide (e.1 = trap))).flatMap (·.2)

theorem mem_reachList (src trap : String) : src ∈ reachList trap ↔ InReach src trap := by
  unfold reachList InReach
  simp only [List.mem_flatMap, List.mem_filter, decide_eq_true_eq]
  constructor
  · rintro ⟨e, ⟨e1, e2⟩, e3⟩; exact ⟨e, e1, e2, e3⟩
  · rintro ⟨e, e1, e2, e3⟩; exact ⟨e, ⟨e1, e2⟩, e3⟩

open Classical in
/-- **C176** every run on the shipped files with the default ejecta scaling, whatever the seed: the table of a cold trap has at
most two layers for each crater or basin listed for it and one more, below the mark of its formation age. No table has more
than 30 rows. -/
theorem C176_shipped (nk : List (ℝ × ℝ)) (sortAges : CraterTable → CraterTable) (sortNk : List (ℝ × ℝ) → List (ℝ × ℝ))
    (setOrder : List (List Char) → List (List Char)) (g : Gen σ) (hg : LawfulGen g) (hs : Spec.SortDesc sortAges) (c : RunCfg)
    (hc : PhysicalCfg c) (hd : PhysicalData c (shippedData nk sortAges sortNk setOrder))
    (hr : Runnable c (shippedData nk sortAges sortNk setOrder)) (he : c.ej = EjCfg.default)
    (hn : ∀ n ∈ c.coldtrap_names, n ∈ (RunCfg.default 1).coldtrap_names) (hmin : 0 ≤ c.thickness_min) :
    ∃ out, runMain g c (shippedData nk sortAges sortNk setOrder) = .ok out ∧
      ∀ name ∈ c.coldtrap_names, ∃ table, out.strat.get name = .ok table ∧
        table.length ≤ 2 * (reachList name).length + (if c.strat_after_age then 2 else 1) ∧ table.length ≤ 30 := by
  obtain ⟨out, hout⟩ := C72_returns g hg c _ hc hd hr
  refine ⟨out, hout, ?_⟩
  obtain ⟨df, s, hdf, hrows⟩ := C176_run g hg c _ hc hd hr.nodup hmin out hout
  obtain ⟨df', s', hdf', p1, p2⟩ := craterBasinList_ok g hg hc hd hr (g.init c.seed)
  rw [hdf] at hdf'
  injection hdf' with hdf'
  injection hdf' with hdf' _
  subst hdf'
  have hgt : GoodTable c _ df := ⟨p1, p2⟩
  have hnodup : (df.map (fun r => r.rest.crater.cname)).Nodup := by
    rw [hgt.perm.nodup_iff]
    have := file_names.1
    simp only [shippedData, List.map_append, List.map_map, Function.comp_def] at this ⊢
    exact this
  intro name hname
  obtain ⟨ej, table, th, -, t2, t3, t4, t5⟩ := hrows name hname
  have hall := fun r hrm => C113_thickness nk sortAges sortNk setOrder g hg hs c hc hd hr he hn df _ s hdf
    r hrm name hname
  have hcount : (th.filter (fun x => decide (0 < x))).length ≤ (reachList name).length := by
    have e : th = (df.zip th).map (·.2) := by
      rw [List.map_snd_zip (by rw [t3.length_eq])]
    rw [e, List.filter_map, List.length_map]
    rw [← List.length_map (f := fun q : CraterAge ℝ CraterCols × ℝ => q.1.rest.crater.cname)]
    refine List.Subperm.length_le (List.Nodup.subperm ?_ ?_)
    · have hsub : (((df.zip th).filter ((fun x => decide (0 < x)) ∘ fun q : CraterAge ℝ CraterCols × ℝ => q.2)).map
          (fun q => q.1.rest.crater.cname)).Sublist (df.map (fun r => r.rest.crater.cname)) := by
        have : df = (df.zip th).map (·.1) := by rw [List.map_fst_zip (by rw [t3.length_eq])]
        conv_rhs => rw [this, List.map_map]
        exact List.filter_sublist.map _
      exact hnodup.sublist hsub
    · intro n hnm
      obtain ⟨q, hq, rfl⟩ := List.mem_map.1 hnm
      obtain ⟨q1, q2⟩ := List.mem_filter.1 hq
      have q1' : (q.1, q.2) ∈ df.zip th := q1
      rw [mem_reachList]
      by_contra hno
      have := (hall q.1 (List.of_mem_zip q1').1 q.2 ((List.forall₂_iff_zip.1 t3).2 q1')).2 hno
      rw [Function.comp, this] at q2
      simp at q2
  have hmax : ∀ n ∈ craterReach.map (·.1), (reachList n).length ≤ 14 := by decide +kernel
  have := hmax name (reach_names.mem_iff.1 (hn name hname))
  refine ⟨table, t2, by omega, ?_⟩
  split at t4 <;> omega

/-- C176 holds for every seed of the default configuration. -/
example (seed : Int) := C176_shipped [] sortDesc id id constGen constGen_lawful sortDesc_spec
  (RunCfg.default seed) (default_physical seed) (default_data _ _ _ _ sortDesc_spec seed)
  (default_runnable _ _ _ _ seed) rfl (fun _ h => h) (by norm_num [RunCfg.default])

end MoonPIES
