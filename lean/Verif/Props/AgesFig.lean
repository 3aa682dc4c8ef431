import Verif.Lemmas.AgesFig
import Verif.Props.AgeFig

/-!
# C114: the figure of crater and basin ages
-/

namespace MoonPIES

open Spec

variable {σ : Type}

theorem ageOrder_total (r s : CraterAge ℝ CraterCols) : ageOrder r s ∨ ageOrder s r := by
  unfold ageOrder
  rcases lt_trichotomy r.age s.age with h | h | h
  · exact Or.inl (Or.inl h)
  · rcases le_total r.ageUpp s.ageUpp with h' | h'
    · exact Or.inl (Or.inr ⟨h, h'⟩)
    · exact Or.inr (Or.inr ⟨h.symm, h'⟩)
  · exact Or.inr (Or.inl h)

theorem ageOrder_trans (r s t : CraterAge ℝ CraterCols) (h1 : ageOrder r s) (h2 : ageOrder s t) :
    ageOrder r t := by
  unfold ageOrder at *
  rcases h1 with h1 | ⟨h1, h1'⟩ <;> rcases h2 with h2 | ⟨h2, h2'⟩
  · exact Or.inl (h1.trans h2)
  · exact Or.inl (h2 ▸ h1)
  · exact Or.inl (h1 ▸ h2)
  · exact Or.inr ⟨h1.trans h2, h1'.trans h2'⟩

theorem ageBars_rising (df : CraterTable) : Rising (ageBars df) := by
  classical
  unfold Rising ageBars
  rw [List.pairwise_map]
  haveI : Std.Total ageOrder := ⟨ageOrder_total⟩
  haveI : IsTrans _ ageOrder := ⟨ageOrder_trans⟩
  refine List.Pairwise.imp ?_ (List.pairwise_insertionSort ageOrder df)
  intro a b h
  rcases h with h | ⟨h1, h2⟩
  · exact Or.inl (by simpa using div_lt_div_of_pos_right h (by norm_num : (0 : ℝ) < 1e9))
  · refine Or.inr ⟨by simp [h1], ?_⟩
    exact div_le_div_of_nonneg_right h2 (by norm_num)

theorem ageBars_mem (df : CraterTable) (b : AgeBar) : b ∈ ageBars df ↔
    ∃ r ∈ df, b = ⟨r.rest.crater.cname, r.age / 1e9, r.ageLow / 1e9, r.ageUpp / 1e9⟩ := by
  classical
  unfold ageBars
  simp only [List.mem_map, List.mem_insertionSort]
  constructor
  · rintro ⟨r, h, rfl⟩; exact ⟨r, h, rfl⟩
  · rintro ⟨r, h, rfl⟩; exact ⟨r, h, rfl⟩

theorem ageBars_labels (df : CraterTable) :
    ((ageBars df).map (·.label)).Perm (df.map (fun r => r.rest.crater.cname)) := by
  classical
  unfold ageBars
  rw [List.map_map]
  exact (List.perm_insertionSort ageOrder df).map _

theorem nobody_imbrium : ∀ e ∈ craterReach ++ basinReach, "Imbrium" ∉ e.2 := by decide +kernel

section shipped

variable (nk : List (ℝ × ℝ)) (sortAges : CraterTable → CraterTable)
  (sortNk : List (ℝ × ℝ) → List (ℝ × ℝ)) (setOrder : List (List Char) → List (List Char))

theorem barOf_of {ts : ℝ} {q : FileRow} {r : CraterAge ℝ CraterCols} (h : RowOf ts q r)
    (label : String) :
    BarOf ts q { label := label, age := r.age / 1e9, low := r.ageLow / 1e9, upp := r.ageUpp / 1e9 } := by
  obtain ⟨-, -, h1, h2, h3, h4, n, h5⟩ := h
  refine ⟨?_, ?_, ?_, ?_, n, ?_⟩
  · simp only [h1]; norm_num
  · simp only [h2]; norm_num
  · simp only []
    rw [le_div_iff₀ (by norm_num)]
    refine le_trans (le_of_eq ?_) h3
    ring
  · simp only []
    rw [div_le_iff₀ (by norm_num)]
    refine le_trans h4 (le_of_eq ?_)
    ring
  · simp only [h5]; norm_num

/-- The names of the rows of one kind. -/
theorem table_split (c : RunCfg) (df : CraterTable)
    (hg : GoodTable c (shippedData nk sortAges sortNk setOrder) df)
    (hrows : ∀ r ∈ df, ∃ q, RowOf c.timestep q r) :
    ((df.filter (fun r => r.rest.crater.isbasin == true)).map (fun r => r.rest.crater.cname)).Perm
      (basinFile.map (·.cname)) ∧
    ((df.filter (fun r => r.rest.crater.isbasin == false)).map (fun r => r.rest.crater.cname)).Perm
      (craterFile.map (·.cname)) := by
  have hperm : (df.map (fun r => r.rest.crater.cname)).Perm
      ((craterFile ++ basinFile).map (·.cname)) := by
    have := hg.perm
    simp only [shippedData, List.map_append, List.map_map, Function.comp_def] at this ⊢
    exact this
  have hb : ∀ r ∈ df, r.rest.crater.isbasin =
      decide (r.rest.crater.cname ∈ basinFile.map (·.cname)) := by
    intro r hr
    obtain ⟨q, q1, q2, -⟩ := hrows r hr
    rcases q2 with ⟨m, h⟩ | ⟨m, h⟩
    · rw [h, q1]
      symm
      rw [decide_eq_false_iff_not]
      intro hm
      have h2 := file_names.1
      rw [List.map_append, List.nodup_append] at h2
      exact h2.2.2 _ (List.mem_map_of_mem m) _ hm rfl
    · rw [h, q1]
      symm
      rw [decide_eq_true_eq]
      exact List.mem_map_of_mem m
  constructor
  · rw [← file_split.1]
    refine List.Perm.trans (List.Perm.of_eq ?_) (hperm.filter _)
    rw [List.filter_map]
    congr 1
    apply List.filter_congr
    intro r hr
    rw [hb r hr]; simp
  · rw [← file_split.2]
    refine List.Perm.trans (List.Perm.of_eq ?_) (hperm.filter _)
    rw [List.filter_map]
    congr 1
    apply List.filter_congr
    intro r hr
    rw [hb r hr]
    simp

theorem file_axes : (∀ q ∈ craterFile, 1.4 ≤ q.age - q.age_low - 5 / 1000 ∧
      q.age + q.age_upp + 5 / 1000 ≤ 4.4) ∧
    (∀ q ∈ basinFile, 3.79 ≤ q.age - q.age_low - 5 / 1000 ∧ q.age + q.age_upp + 5 / 1000 ≤ 4.35) ∧
    (∀ q ∈ basinFile, q.cname = "Nectaris" → 4.15 < q.age - q.age_low - 5 / 1000) ∧
    ∀ q ∈ basinFile, q.cname = "Imbrium" → 3.81 < q.age - q.age_low - 5 / 1000 ∧
      q.age + q.age_upp + 5 / 1000 < 3.92 := by decide +kernel

/-- **C114** the figure of crater and basin ages, for the shipped files, any of the default cold traps
that include one reached by Nectaris, and timesteps of at most 10 million years: it is drawn without
an error, whatever is drawn.  Each listed crater and each listed basin has one bar, with the listed
errors; the basins with a star are those that reach a cold trap; bars are sorted; all markers are on
the axes; the eras are in order and cover both axes. -/
theorem C114_figure (g : Gen σ) (hg : LawfulGen g) (hs : Spec.SortDesc sortAges) (c : RunCfg)
    (hc : PhysicalCfg c) (hd : PhysicalData c (shippedData nk sortAges sortNk setOrder))
    (hr : Runnable c (shippedData nk sortAges sortNk setOrder)) (he : c.ej = EjCfg.default)
    (hn : ∀ n ∈ c.coldtrap_names, n ∈ (RunCfg.default 1).coldtrap_names)
    (hnec : Hits c.coldtrap_names "Nectaris") (hts : c.timestep ≤ 10 ^ 7) (e1 e2 : σ) :
    ∃ fig nec imb, agesFigure g c (shippedData nk sortAges sortNk setOrder) e1 e2 = .ok fig ∧
      (fig.craters.bars.map (·.label)).Perm (craterFile.map (·.cname)) ∧
      (fig.basins.bars.map (·.label)).Perm
        (basinFile.map fun q => basinTick c.coldtrap_names q.cname) ∧
      (∀ b ∈ fig.craters.bars, ∃ q ∈ craterFile, b.label = q.cname ∧ BarOf c.timestep q b) ∧
      (∀ b ∈ fig.basins.bars, ∃ q ∈ basinFile, b.label = basinTick c.coldtrap_names q.cname ∧
        BarOf c.timestep q b) ∧
      Rising fig.craters.bars ∧ Rising fig.basins.bars ∧
      (∀ b ∈ fig.craters.bars, fig.craters.right ≤ b.age ∧ b.age ≤ fig.craters.left) ∧
      (∀ b ∈ fig.basins.bars, fig.basins.right ≤ b.age ∧ b.age ≤ fig.basins.left) ∧
      (∃ b ∈ fig.basins.bars, b.label = "*Nectaris" ∧ b.age = nec) ∧
      (∃ b ∈ fig.basins.bars, b.label = "Imbrium" ∧ b.age = imb) ∧
      fig.eras = [("pNe.", 4.5, nec), ("Ne.", nec, imb), ("Im.", imb, 3.2), ("Era.", 3.2, 1.1)] ∧
      nec < 4.5 ∧ imb + 0.2 < nec ∧ 3.2 < imb ∧
      Tiled fig.eras fig.craters.left fig.craters.right ∧
      Tiled fig.eras fig.basins.left fig.basins.right ∧
      fig.craters.names = [("pNe.", nec), ("Ne.", imb), ("Im.", 3.2), ("Era.", 1.4)] ∧
      fig.basins.names = [("pNe.", nec), ("Ne.", imb), ("Im.", 3.79)] := by
  obtain ⟨df, s', hdf, hgt, hfig⟩ := agesFigure_eq nk sortAges sortNk setOrder g hg hs c hc hd hr he hn
    e1 e2
  have hrows := table_rowOf nk sortAges sortNk setOrder g.pair hs c df _ _ hdf hgt
  obtain ⟨sp1, sp2⟩ := table_split nk sortAges sortNk setOrder c df hgt hrows
  have hmem : ∀ {q}, q ∈ basinFile → q ∈ craterFile ++ basinFile := List.mem_append_right _
  obtain ⟨qn, hqn, hqn'⟩ := file_names.2.2 "Nectaris" (by simp)
  obtain ⟨qi, hqi, hqi'⟩ := file_names.2.2 "Imbrium" (by simp)
  have himb : ¬ Hits c.coldtrap_names "Imbrium" := by
    rintro ⟨n, -, e, h1, -, h2⟩
    exact nobody_imbrium e h1 h2
  obtain ⟨rn, n1, n2, n3, n4⟩ := ageAt_one nk sortAges sortNk setOrder c df hgt hrows qn hqn "*Nectaris" (by
    intro q' hq'
    rw [show "*Nectaris" = "*" ++ "Nectaris" from rfl, basinTick_star _ _ (hmem hq'), hqn']
    exact ⟨fun h => h.1, fun h => ⟨h, hnec⟩⟩)
  obtain ⟨ri, i1, i2, i3, i4⟩ := ageAt_one nk sortAges sortNk setOrder c df hgt hrows qi hqi "Imbrium" (by
    intro q' hq'
    rw [hqi']
    constructor
    · intro h
      by_cases hh : Hits c.coldtrap_names q'.cname
      · unfold basinTick at h
        rw [if_pos hh] at h
        have := congrArg (fun s => s.toList.head?) h
        simp only [String.toList_append] at this
        rw [show ("*".toList ++ q'.cname.toList).head? = some '*' from rfl] at this
        exact absurd this (by decide)
      · rwa [(basinTick_plain _ _ (hmem hq')).2 hh] at h
    · intro h
      rw [h]
      unfold basinTick
      rw [if_neg himb])
  have hfb : (df.map (starRow c.coldtrap_names)).filter (fun r => r.rest.crater.isbasin) =
      (df.filter (fun r => r.rest.crater.isbasin == true)).map (starRow c.coldtrap_names) := by
    rw [← filter_star_basin]; simp
  have hfc : (df.map (starRow c.coldtrap_names)).filter (fun r => !r.rest.crater.isbasin) =
      (df.filter (fun r => r.rest.crater.isbasin == false)).map (starRow c.coldtrap_names) := by
    rw [← filter_star_basin]; simp
  simp only [bind, Except.bind, hfb, hfc, n4, i4, liftPy] at hfig
  have hstep : c.timestep / 2 / 1e9 ≤ 5 / 1000 := by
    rw [div_le_iff₀ (by norm_num)]; norm_num; linarith
  have bars : ∀ b, ∀ bar ∈ ageBars ((df.filter (fun r => r.rest.crater.isbasin == b)).map
      (starRow c.coldtrap_names)), ∃ q ∈ (if b then basinFile else craterFile),
      bar.label = (if b then basinTick c.coldtrap_names q.cname else q.cname) ∧
      BarOf c.timestep q bar := by
    intro b bar hb
    rw [ageBars_mem] at hb
    obtain ⟨r', hr', rfl⟩ := hb
    obtain ⟨r, hr1, rfl⟩ := List.mem_map.1 hr'
    obtain ⟨hr2, hr3⟩ := List.mem_filter.1 hr1
    obtain ⟨q, hq⟩ := hrows r hr2
    obtain ⟨-, k1, k2, k3⟩ := starRow_basin c.coldtrap_names r
    refine ⟨q, ?_, ?_, ?_⟩
    · rcases hq.2.1 with ⟨m, h⟩ | ⟨m, h⟩ <;> rw [h] at hr3 <;> cases b <;> simp_all
    · simp only [starRow_name, hq.1]
      rcases hq.2.1 with ⟨m, h⟩ | ⟨m, h⟩ <;> rw [h] at hr3 <;> cases b <;> simp_all
    · rw [k1, k2, k3]
      exact barOf_of hq _
  have barsC := bars false
  have barsB := bars true
  simp only [if_true, if_false, Bool.false_eq_true] at barsC barsB
  have cast : ∀ {a b : ℚ}, a ≤ b → (a : ℝ) ≤ b := fun h => by exact_mod_cast h
  have nb := barOf_of n2 "*Nectaris"
  have ib := barOf_of i2 "Imbrium"
  have en := file_axes.2.2.1 qn hqn hqn'
  have en2 := (file_axes.2.1 qn hqn).2
  obtain ⟨ei1, ei2⟩ := file_axes.2.2.2 qi hqi hqi'
  have en' : (4.15 : ℝ) < qn.age - qn.age_low - 5 / 1000 := by
    have : ((4.15 : ℚ) : ℝ) < ((qn.age - qn.age_low - 5 / 1000 : ℚ) : ℝ) := by exact_mod_cast en
    push_cast at this; exact this
  have en2' : (qn.age : ℝ) + qn.age_upp + 5 / 1000 ≤ 4.35 := by
    have := cast en2
    push_cast at this; exact this
  have ei1' : (3.81 : ℝ) < qi.age - qi.age_low - 5 / 1000 := by
    have : ((3.81 : ℚ) : ℝ) < ((qi.age - qi.age_low - 5 / 1000 : ℚ) : ℝ) := by exact_mod_cast ei1
    push_cast at this; exact this
  have ei2' : (qi.age : ℝ) + qi.age_upp + 5 / 1000 < 3.92 := by
    have : ((qi.age + qi.age_upp + 5 / 1000 : ℚ) : ℝ) < ((3.92 : ℚ) : ℝ) := by exact_mod_cast ei2
    push_cast at this; exact this
  have nlo := nb.above
  have nhi := nb.below
  have ilo := ib.above
  have ihi := ib.below
  simp only [] at nlo nhi ilo ihi
  obtain ⟨nec, hne⟩ : ∃ t, t = rn.age / 1e9 := ⟨_, rfl⟩
  obtain ⟨imb, him⟩ : ∃ t, t = ri.age / 1e9 := ⟨_, rfl⟩
  rw [← hne] at hfig nlo nhi
  rw [← him] at hfig ilo ihi
  have tiled : ∀ left right : ℝ, left ≤ 4.5 → 1.1 ≤ right → Tiled (agesEras nec imb) left right := by
    intro left right h1 h2
    constructor
    · intro x h3 h4
      unfold agesEras
      by_cases k1 : nec ≤ x
      · exact ⟨("pNe.", 4.5, nec), by simp, k1, by simp only []; linarith⟩
      · by_cases k2 : imb ≤ x
        · exact ⟨("Ne.", nec, imb), by simp, k2, by simp only []; linarith⟩
        · by_cases k3 : 3.2 ≤ x
          · exact ⟨("Im.", imb, 3.2), by simp, k3, by simp only []; linarith⟩
          · exact ⟨("Era.", 3.2, 1.1), by simp, by simp only []; linarith, by simp only []; linarith⟩
    · unfold agesEras
      simp only [List.pairwise_cons, List.mem_cons, List.not_mem_nil, or_false]
      refine ⟨?_, ?_, ?_, by simp⟩
      · rintro f (rfl | rfl | rfl) <;> simp only [] <;> linarith
      · rintro f (rfl | rfl) <;> simp only [] <;> linarith
      · rintro f rfl; exact le_rfl
  refine ⟨_, nec, imb, hfig, ?_, ?_, barsC, barsB, ageBars_rising _, ageBars_rising _, ?_, ?_, ?_, ?_,
    rfl, by linarith, by linarith, by linarith, tiled _ _ (by simp [agePanel]; norm_num)
      (by simp [agePanel]; norm_num), tiled _ _ (by simp [agePanel]; norm_num)
      (by simp [agePanel]; norm_num), ?_, ?_⟩
  · refine (ageBars_labels _).trans (List.Perm.trans (List.Perm.of_eq ?_) sp2)
    rw [List.map_map]
    apply List.map_congr_left
    intro r hr
    have := (List.mem_filter.1 hr).2
    simp only [beq_iff_eq] at this
    simp [starRow_name, this]
  · refine (ageBars_labels _).trans ?_
    rw [List.map_map, show (basinFile.map fun q => basinTick c.coldtrap_names q.cname) =
      (basinFile.map (·.cname)).map (basinTick c.coldtrap_names) by rw [List.map_map]; rfl]
    refine List.Perm.trans (List.Perm.of_eq ?_) (sp1.map _)
    rw [List.map_map]
    apply List.map_congr_left
    intro r hr
    have := (List.mem_filter.1 hr).2
    simp only [beq_iff_eq] at this
    simp [starRow_name, this]
  · intro b hb
    obtain ⟨q, hq, -, hq'⟩ := barsC b hb
    obtain ⟨a1, a2⟩ := file_axes.1 q hq
    have a1 := cast a1
    have a2 := cast a2
    push_cast at a1 a2
    have := hq'.above
    have := hq'.below
    simp only [agePanel, Bool.false_eq_true, if_false]
    constructor <;> linarith
  · intro b hb
    obtain ⟨q, hq, -, hq'⟩ := barsB b hb
    obtain ⟨a1, a2⟩ := file_axes.2.1 q hq
    have a1 := cast a1
    have a2 := cast a2
    push_cast at a1 a2
    have := hq'.above
    have := hq'.below
    simp only [agePanel, if_true]
    constructor <;> linarith
  · refine ⟨_, (ageBars_mem _ _).2 ⟨_, List.mem_map_of_mem (List.mem_filter.2 ⟨n1, by simp [n3]⟩), rfl⟩,
      ?_, ?_⟩
    · simp only [starRow_name, n3, if_true, n2.1, hqn']
      unfold basinTick
      rw [if_pos hnec]
      rfl
    · simp only [(starRow_basin c.coldtrap_names rn).2.1, hne]
  · refine ⟨_, (ageBars_mem _ _).2 ⟨_, List.mem_map_of_mem (List.mem_filter.2 ⟨i1, by simp [i3]⟩), rfl⟩,
      ?_, ?_⟩
    · simp only [starRow_name, i3, if_true, i2.1, hqi']
      unfold basinTick
      rw [if_neg himb]
    · simp only [(starRow_basin c.coldtrap_names ri).2.1, him]
  · simp only [agePanel, agesEras, Bool.false_and, Bool.not_false, List.filter_true, List.map_cons,
      List.map_nil, Bool.false_eq_true, if_false]
    rw [max_eq_left (by linarith), max_eq_left (by linarith), max_eq_left (by norm_num),
      max_eq_right (by norm_num)]
  · have hf : (agesEras nec imb).filter (fun e => !(true && e.1 == "Era.")) =
        [("pNe.", 4.5, nec), ("Ne.", nec, imb), ("Im.", imb, 3.2)] := by
      unfold agesEras
      simp
    simp only [agePanel, hf, List.map_cons, List.map_nil, if_true]
    rw [max_eq_left (by linarith), max_eq_left (by linarith), max_eq_right (by norm_num)]

/-- **C114** without a cold trap that Nectaris reaches, the figure ends with a `KeyError`. -/
theorem C114_no_nectaris (g : Gen σ) (hg : LawfulGen g) (hs : Spec.SortDesc sortAges) (c : RunCfg)
    (hc : PhysicalCfg c) (hd : PhysicalData c (shippedData nk sortAges sortNk setOrder))
    (hr : Runnable c (shippedData nk sortAges sortNk setOrder)) (he : c.ej = EjCfg.default)
    (hn : ∀ n ∈ c.coldtrap_names, n ∈ (RunCfg.default 1).coldtrap_names)
    (hnec : ¬ Hits c.coldtrap_names "Nectaris") (e1 e2 : σ) :
    agesFigure g c (shippedData nk sortAges sortNk setOrder) e1 e2 = .error (.py .keyError) := by
  obtain ⟨df, s', hdf, hgt, hfig⟩ := agesFigure_eq nk sortAges sortNk setOrder g hg hs c hc hd hr he hn
    e1 e2
  have hrows := table_rowOf nk sortAges sortNk setOrder g.pair hs c df _ _ hdf hgt
  have hnone : ((df.map (starRow c.coldtrap_names)).filter (fun r => r.rest.crater.isbasin)).filter
      (fun r => decide (r.rest.crater.cname = "*Nectaris")) = [] := by
    rw [List.filter_eq_nil_iff]
    intro r hr h
    rw [decide_eq_true_eq] at h
    obtain ⟨hr1, hr2⟩ := List.mem_filter.1 hr
    obtain ⟨t, ht, rfl⟩ := List.mem_map.1 hr1
    rw [(starRow_basin _ _).1] at hr2
    rw [starRow_name, if_pos hr2] at h
    obtain ⟨q, q1, q2, -⟩ := hrows t ht
    rw [q1, show "*Nectaris" = "*" ++ "Nectaris" from rfl, basinTick_star _ _ (by
      rcases q2 with ⟨m, -⟩ | ⟨m, -⟩
      · exact List.mem_append_left _ m
      · exact List.mem_append_right _ m)] at h
    exact hnec h.2
  rw [hfig]
  simp only [bind, Except.bind]
  unfold ageAt
  rw [hnone]
  rfl

end shipped

/-- **C114** with the default cold traps, seven basins have a star. -/
theorem C114_stars (seed : Int) (q : FileRow) (hq : q ∈ basinFile) :
    Hits (RunCfg.default seed).coldtrap_names q.cname ↔ q.cname ∈ ["Amundsen-Ganswindt",
      "Schiller-Zucchius", "Nectaris", "Mendel-Rydberg", "Humorum", "Schrodinger", "Orientale"] := by
  have key : ∀ q ∈ basinFile, (∃ n ∈ ["Haworth", "Shoemaker", "Faustini", "Shackleton", "Slater",
      "Amundsen", "Cabeus", "Sverdrup", "de Gerlache", "Idel'son L", "Wiechert J", "Cabeus B"],
      ∃ e ∈ craterReach ++ basinReach, e.1 = n ∧ q.cname ∈ e.2) ↔ q.cname ∈ ["Amundsen-Ganswindt",
      "Schiller-Zucchius", "Nectaris", "Mendel-Rydberg", "Humorum", "Schrodinger", "Orientale"] := by
    decide +kernel
  exact key q hq

theorem nectaris_default (seed : Int) : Hits (RunCfg.default seed).coldtrap_names "Nectaris" := by
  obtain ⟨q, hq, h⟩ := file_names.2.2 "Nectaris" (by simp)
  rw [← h, C114_stars seed q hq, h]
  decide

/-- C114 applies to the default configuration with every seed. -/
example (seed : Int) := C114_figure [] sortDesc id id constGen constGen_lawful sortDesc_spec
  (RunCfg.default seed) (default_physical seed) (default_data _ _ _ _ sortDesc_spec seed)
  (default_runnable _ _ _ _ seed) rfl (fun _ h => h) (nectaris_default seed)
  (by norm_num [RunCfg.default])


/-- The default configuration with one cold trap, which Nectaris does not reach. -/
noncomputable def cabeusCfg (seed : Int) : RunCfg :=
  { RunCfg.default seed with coldtrap_names := ["Cabeus"] }

/-- C114 applies to a configuration with only Cabeus. -/
example (seed : Int) : agesFigure constGen (cabeusCfg seed) (shippedData [] sortDesc id id) () () =
    .error (.py .keyError) := by
  have hsub : ∀ n ∈ (cabeusCfg seed).coldtrap_names, n ∈ (RunCfg.default seed).coldtrap_names := by
    intro n hn
    obtain rfl := List.mem_singleton.1 hn
    simp [RunCfg.default]
  have hp : PhysicalCfg (cabeusCfg seed) := by
    cases default_physical seed
    constructor <;> assumption
  have hd : PhysicalData (cabeusCfg seed) (shippedData [] sortDesc id id) := by
    have h := default_data [] sortDesc id id sortDesc_spec seed
    exact ⟨h.solar, h.volc, fun h1 n hn => h.hops h1 n (hsub n hn), h.basins, h.melt, h.lost, h.sorted⟩
  have hr : Runnable (cabeusCfg seed) (shippedData [] sortDesc id id) := by
    have h := default_runnable [] sortDesc id id seed
    exact ⟨by simp [cabeusCfg], by simp [cabeusCfg], h.start, h.span, h.bars, h.diam,
      fun n hn => h.once n (hsub n hn), fun r hr hn => h.old r hr (hsub _ hn), h.s2c, h.c2pr, h.angle90,
      fun r hr h1 => ⟨(h.peak r hr h1).1, fun t ht hn => (h.peak r hr h1).2 t ht (hsub _ hn)⟩, h.covers⟩
  refine C114_no_nectaris [] sortDesc id id constGen constGen_lawful sortDesc_spec _ hp hd hr rfl hsub ?_
    () ()
  rintro ⟨n, hn, e, he, h1, h2⟩
  obtain rfl := List.mem_singleton.1 hn
  have : ∀ e ∈ craterReach ++ basinReach, e.1 = "Cabeus" → "Nectaris" ∉ e.2 := by decide +kernel
  exact this e he h1 h2

/-- **C114** the bars are drawn about random ages, so a bar need not contain the age that is listed:
that of Wiechert J may be from 3.4 Ga on, though 3.2 Ga is listed. -/
theorem C114_bar_random (seed : Int) :
    ∃ fig, agesFigure highGen (RunCfg.default seed) (shippedData [] sortDesc id id) true false = .ok fig ∧
      ∃ b ∈ fig.craters.bars, b.label = "Wiechert J" ∧ b.age - b.low > 3.39 ∧
        ∃ q ∈ craterFile, q.cname = "Wiechert J" ∧ q.age = 3.2 := by
  obtain ⟨df, s', hdf, hgt, hfig⟩ := agesFigure_eq [] sortDesc id id highGen highGen_lawful
    sortDesc_spec (RunCfg.default seed) (default_physical seed)
    (default_data _ _ _ _ sortDesc_spec seed) (default_runnable _ _ _ _ seed) rfl (fun _ h => h) true false
  obtain ⟨fig, nec, imb, h1, h2, -, h3, -⟩ := C114_figure [] sortDesc id id highGen highGen_lawful
    sortDesc_spec (RunCfg.default seed) (default_physical seed)
    (default_data _ _ _ _ sortDesc_spec seed) (default_runnable _ _ _ _ seed) rfl (fun _ h => h)
    (nectaris_default seed) (by norm_num [RunCfg.default]) true false
  have hrows := table_rowOf [] sortDesc id id highGen.pair sortDesc_spec (RunCfg.default seed) df _ _
    hdf hgt
  obtain ⟨-, rows, t1, -, t2, -⟩ := tableDrawn_of highGen highGen_lawful (default_physical seed)
    (default_data _ _ _ _ sortDesc_spec seed) (default_runnable _ _ _ _ seed) (true, false) df s' hdf
  obtain ⟨q, hqe⟩ : ∃ t, t = craterFile[21] := ⟨_, rfl⟩
  have hget : (shippedData [] sortDesc id id).craters[21]? = some q.read := by rw [hqe]; rfl
  have r1 : q.read.age_low = 0.1 := by rw [hqe]; norm_num [craterFile, FileRow.read]
  have r2 : q.read.age_upp = 0.3 := by rw [hqe]; norm_num [craterFile, FileRow.read]
  have r3 : q.read.age = 3.2 := by rw [hqe]; norm_num [craterFile, FileRow.read]
  have r4 : q.cname = "Wiechert J" ∧ q.age = 3.2 ∧ q.age_low = 0.1 := by rw [hqe]; decide +kernel
  have hqm : q ∈ craterFile := by rw [hqe]; exact List.getElem_mem _
  obtain ⟨r, z, u1, u2, u3⟩ := t2 21 _ hget
  change (List.map (fun p : ℝ × ℝ => p.2) _)[21]? = _ at u2
  rw [List.getElem?_map, List.getElem?_map, List.getElem?_append_left
    (List.getElem?_eq_some_iff.1 hget).1, hget] at u2
  injection u2 with u2
  simp only [ageRange, r1, r2] at u2
  have hage := u3.age
  rw [r1, r2, r3, ← u2] at hage
  simp only [RunCfg.default] at hage
  norm_num [abs_le] at hage
  have hrdf : r ∈ df := t1.mem_iff.2 (List.mem_of_getElem? u1)
  obtain ⟨q', hq'⟩ := hrows r hrdf
  have hb : r.rest.crater.isbasin = false := u3.basin
  have hqq : q' = q := by
    refine List.inj_on_of_nodup_map file_names.1 ?_ (List.mem_append_left _ hqm)
      (hq'.1.symm.trans u3.name)
    rcases hq'.2.1 with ⟨m, -⟩ | ⟨m, -⟩
    · exact List.mem_append_left _ m
    · exact List.mem_append_right _ m
  subst hqq
  rw [h1] at hfig
  obtain ⟨n, -, hfig⟩ := bind_ok_inv hfig.symm
  obtain ⟨i, -, hfig⟩ := bind_ok_inv hfig
  injection hfig with hfig
  refine ⟨fig, h1, ⟨r.rest.crater.cname, r.age / 1e9, r.ageLow / 1e9, r.ageUpp / 1e9⟩, ?_,
    hq'.1.trans r4.1, ?_, q', hqm, r4.1, r4.2.1⟩
  · rw [← hfig]
    refine (ageBars_mem _ _).2 ⟨starRow (RunCfg.default seed).coldtrap_names r,
      List.mem_filter.2 ⟨List.mem_map_of_mem hrdf, ?_⟩, ?_⟩
    · rw [(starRow_basin _ _).1, hb]; rfl
    · obtain ⟨-, k1, k2, k3⟩ := starRow_basin (RunCfg.default seed).coldtrap_names r
      rw [k1, k2, k3, starRow_name, hb]
      simp
  · simp only [hq'.2.2.1, r4.2.2]
    push_cast
    norm_num
    linarith [hage.1]

end MoonPIES
