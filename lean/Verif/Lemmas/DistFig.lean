import Verif.Spec.DistFig
import Verif.Lemmas.AgesFig
import Verif.Props.RngArg
import Verif.Props.HopFig

/-!
# Lemmas for C118
-/

namespace MoonPIES

open Real InnerProductGeometry Spec

variable {σ : Type}

theorem arrAt_ok {α : Type} {l : List α} {i : Nat} {x : α} : arrAt l i = .ok x ↔ l[i]? = some x := by
  unfold arrAt
  cases l[i]? with
  | none => simp
  | some y => simp

theorem rowIndex_ok {df : CraterTable} {name : String} {i : Nat} (h : rowIndex df name = .ok i) :
    ∃ r, df[i]? = some r ∧ r.rest.crater.cname = name := by
  unfold rowIndex at h
  cases hf : df.findIdx? (fun r => decide (r.rest.crater.cname = name)) with
  | none => rw [hf] at h; cases h
  | some k =>
    rw [hf] at h
    injection h with h
    subst h
    obtain ⟨hk, h1, -⟩ := List.findIdx?_eq_some_iff_getElem.1 hf
    exact ⟨df[k], List.getElem?_eq_getElem hk, by simpa using h1⟩

theorem rowIndex_exists {df : CraterTable} {name : String}
    (h : ∃ r ∈ df, r.rest.crater.cname = name) : ∃ i, rowIndex df name = .ok i := by
  unfold rowIndex
  cases hf : df.findIdx? (fun r => decide (r.rest.crater.cname = name)) with
  | none =>
    obtain ⟨r, hr, hn⟩ := h
    have := List.findIdx?_eq_none_iff.1 hf r hr
    simp [hn] at this
  | some k => exact ⟨k, rfl⟩

theorem argmaxName_spec (traps : List String) (name : String) (hne : traps ≠ []) :
    (name ∈ traps → traps[argmaxName traps name]? = some name) ∧
    (name ∉ traps → traps[argmaxName traps name]? = traps.head?) := by
  unfold argmaxName
  cases hf : traps.findIdx? (fun t => decide (t = name)) with
  | none =>
    have := List.findIdx?_eq_none_iff.1 hf
    refine ⟨fun h => ?_, fun _ => ?_⟩
    · simpa using this name h
    · rw [List.head?_eq_getElem?]
  | some k =>
    obtain ⟨hk, h1, -⟩ := List.findIdx?_eq_some_iff_getElem.1 hf
    have h1 : traps[k] = name := by simpa using h1
    refine ⟨fun _ => by rw [List.getElem?_eq_getElem hk, h1], fun h => ?_⟩
    exact absurd (h1 ▸ List.getElem_mem hk) h

theorem foldl_max_mem (l : List ℝ) (x : ℝ) : (∀ y ∈ x :: l, y ≤ l.foldl max x) := by
  induction l generalizing x with
  | nil => intro y hy; simp at hy; simp [hy]
  | cons a l ih =>
    intro y hy
    rw [List.foldl_cons]
    have h0 := ih (max x a) (max x a) (by simp)
    rcases List.mem_cons.1 hy with rfl | hy
    · exact (le_max_left _ _).trans h0
    · rcases List.mem_cons.1 hy with rfl | hy
      · exact (le_max_right _ _).trans h0
      · exact ih _ y (by simp [hy])

theorem nanMax_some {l : List (Option ℝ)} (h : ∃ x, some x ∈ l) :
    ∃ m, nanMax l = .ok (some m) ∧ ∀ x, some x ∈ l → x ≤ m := by
  obtain ⟨x, hx⟩ := h
  unfold nanMax
  match hl : l with
  | [] => cases hx
  | a :: l' =>
    simp only []
    have hm : ∀ y, some y ∈ a :: l' ↔ y ∈ (a :: l').filterMap id := by
      intro y; simp [List.mem_filterMap]
    cases hf : (a :: l').filterMap id with
    | nil => rw [hm, hf] at hx; cases hx
    | cons b r =>
      refine ⟨_, rfl, ?_⟩
      intro y hy
      rw [hm, hf] at hy
      exact foldl_max_mem r b y hy

/-- Parts of a figure that is drawn. -/
theorem distFigureOf_inv {c : RunCfg} {df : CraterTable} {fig : DistFigure}
    (h : distFigureOf c df = .ok fig) : ∃ dists thick a row,
      coldtrapDists c.ej (df.map (·.rest.crater)) c.coldtrap_names = .ok dists ∧
      thicknessMatrix c df dists = .ok thick ∧
      rowIndex df "Amundsen" = .ok a ∧ dists[a]? = some row ∧
      fig.points = List.zipWith (fun ds ts => List.zipWith (fun (d : Option ℝ × Option ℝ) t =>
        (⟨d.1, t, d.2.map fun m => -t * m⟩ : DistPoint)) (ds.zip (ds.map (mixingRatio c.mixing_ratio_petro
          c.mixing_ratio_a c.mixing_ratio_b))) ts) dists thick ∧
      fig.points[0]? = some fig.line ∧
      ["Faustini", "Shoemaker", "Haworth"].mapM (fun n => do
        let x ← arrAt row (argmaxName c.coldtrap_names n)
        (.ok ("Amundsen->" ++ n, x) : Except PyErr _)) = .ok fig.vlines ∧
      nanMax (((df.zip dists).filter fun p => !p.1.rest.crater.isbasin).map (·.2)).flatten =
        .ok (some fig.xmax) := by
  unfold distFigureOf at h
  obtain ⟨dists, h1, h⟩ := bind_ok_inv h
  obtain ⟨thick, h2, h⟩ := bind_ok_inv h
  obtain ⟨marks, h3, h⟩ := bind_ok_inv h
  obtain ⟨a, h4, h⟩ := bind_ok_inv h
  obtain ⟨xm, h5, h⟩ := bind_ok_inv h
  obtain ⟨line, h6, h⟩ := bind_ok_inv h
  obtain ⟨row, h7, h⟩ := bind_ok_inv h
  obtain ⟨vl, h8, h⟩ := bind_ok_inv h
  cases xm with
  | none => cases h
  | some xm =>
    injection h with h
    subst h
    exact ⟨dists, thick, a, row, liftPy_ok h1, h2, liftPy_ok h4, arrAt_ok.1 (liftPy_ok h7), rfl,
      arrAt_ok.1 (liftPy_ok h6), liftPy_ok h8, liftPy_ok h5⟩

/-- The points of the upper panel. -/
theorem distFigureOf_marks {c : RunCfg} {df : CraterTable} {fig : DistFigure}
    (h : distFigureOf c df = .ok fig) : ∃ dists,
      coldtrapDists c.ej (df.map (·.rest.crater)) c.coldtrap_names = .ok dists ∧
      (c.coldtrap_names.take 6).mapM (fun n => do
        let i ← rowIndex df n
        let row ← arrAt dists i
        (.ok (n, row.zip (row.map (mixingRatio c.mixing_ratio_petro c.mixing_ratio_a
          c.mixing_ratio_b))) : Except PyErr _)) = .ok fig.marks := by
  unfold distFigureOf at h
  obtain ⟨dists, h1, h⟩ := bind_ok_inv h
  obtain ⟨thick, h2, h⟩ := bind_ok_inv h
  obtain ⟨marks, h3, h⟩ := bind_ok_inv h
  obtain ⟨a, h4, h⟩ := bind_ok_inv h
  obtain ⟨xm, h5, h⟩ := bind_ok_inv h
  obtain ⟨line, h6, h⟩ := bind_ok_inv h
  obtain ⟨row, h7, h⟩ := bind_ok_inv h
  obtain ⟨vl, h8, h⟩ := bind_ok_inv h
  cases xm with
  | none => cases h
  | some xm =>
    injection h with h
    subst h
    exact ⟨dists, liftPy_ok h1, liftPy_ok h3⟩

/-- It is drawn if the table is usable. -/
theorem distFigureOf_exists {c : RunCfg} {d : RunData} {df : CraterTable} (hc : PhysicalCfg c)
    (hr : Runnable c d) (hg : GoodTable c d df) (ha : ∃ r ∈ df, r.rest.crater.cname = "Amundsen")
    (hx : ∃ r ∈ df, r.rest.crater.isbasin = false ∧ ∃ n ∈ c.coldtrap_names, ∃ x,
      coldtrapDist c.ej (df.map (·.rest.crater)) r.rest.crater n = .ok (some x)) :
    ∃ fig, distFigureOf c df = .ok fig := by
  obtain ⟨dists, h1⟩ := coldtrapDists_ok hr hg
  obtain ⟨thick, h2, h2l, -⟩ := thicknessMatrix_ok hc hr hg dists h1
  obtain ⟨l1, i1⟩ := mapM_ok_inv _ _ _ h1
  rw [List.length_map] at l1
  have hin : ∀ n ∈ c.coldtrap_names, ∃ r ∈ df, r.rest.crater.cname = n := by
    intro n hn
    obtain ⟨t, ht⟩ := goodTable_once hr hg n hn
    have htm : t ∈ (df.map (·.rest.crater)).filter (fun c => decide (c.cname = n)) := by
      rw [ht]; simp
    obtain ⟨m1, m2⟩ := List.mem_filter.1 htm
    obtain ⟨r, hr1, rfl⟩ := List.mem_map.1 m1
    exact ⟨r, hr1, by simpa using m2⟩
  have hrow : ∀ n, (∃ r ∈ df, r.rest.crater.cname = n) → ∃ i ds, rowIndex df n = .ok i ∧
      arrAt dists i = .ok ds ∧ ds.length = c.coldtrap_names.length := by
    intro n hn
    obtain ⟨i, hi⟩ := rowIndex_exists hn
    obtain ⟨r, hr1, -⟩ := rowIndex_ok hi
    obtain ⟨ds, e1, e2⟩ := i1 i r.rest.crater (by rw [List.getElem?_map, hr1]; rfl)
    exact ⟨i, ds, hi, arrAt_ok.2 e1, (mapM_ok_inv _ _ _ e2).1⟩
  obtain ⟨a, row, a1, a2, a3⟩ := hrow _ ha
  obtain ⟨marks, h3⟩ : ∃ m, (c.coldtrap_names.take 6).mapM (fun n => do
      let i ← rowIndex df n
      let row ← arrAt dists i
      (.ok (n, row.zip (row.map (mixingRatio c.mixing_ratio_petro c.mixing_ratio_a
        c.mixing_ratio_b))) : Except PyErr _)) = .ok m := by
    refine (mapM_ok_exists _ _ ?_).imp fun _ h => h.1
    intro n hn
    obtain ⟨i, ds, b1, b2, -⟩ := hrow n (hin n (List.mem_of_mem_take hn))
    exact ⟨_, by simp only [b1, b2, bind, Except.bind]; rfl⟩
  have hne : c.coldtrap_names ≠ [] := hr.names
  obtain ⟨vl, h8⟩ : ∃ m, ["Faustini", "Shoemaker", "Haworth"].mapM (fun n => do
        let x ← arrAt row (argmaxName c.coldtrap_names n)
        (.ok ("Amundsen->" ++ n, x) : Except PyErr _)) = .ok m := by
    refine (mapM_ok_exists _ _ ?_).imp fun _ h => h.1
    intro n hn
    have hlt : argmaxName c.coldtrap_names n < row.length := by
      rw [a3]
      by_cases hm : n ∈ c.coldtrap_names
      · exact (List.getElem?_eq_some_iff.1 ((argmaxName_spec _ n hne).1 hm)).1
      · have := (argmaxName_spec _ n hne).2 hm
        cases hcn : c.coldtrap_names with
        | nil => exact absurd hcn hne
        | cons b t =>
          rw [hcn] at this
          exact (List.getElem?_eq_some_iff.1 this).1
    exact ⟨_, by simp only [arrAt_ok.2 (List.getElem?_eq_getElem hlt), bind, Except.bind]; rfl⟩
  obtain ⟨xm, h5, -⟩ := nanMax_some (l := (((df.zip dists).filter fun p =>
      !p.1.rest.crater.isbasin).map (·.2)).flatten) (by
    obtain ⟨r, r1, r2, n, n1, x, hx⟩ := hx
    obtain ⟨i, hi⟩ := List.mem_iff_getElem?.1 r1
    obtain ⟨j, hj⟩ := List.mem_iff_getElem?.1 n1
    obtain ⟨ds, e1, e2⟩ := i1 i r.rest.crater (by rw [List.getElem?_map, hi]; rfl)
    obtain ⟨o, e3, e4⟩ := (mapM_ok_inv _ _ _ e2).2 j n hj
    rw [hx] at e4
    injection e4 with e4
    refine ⟨x, List.mem_flatten.2 ⟨ds, List.mem_map.2 ⟨(r, ds), List.mem_filter.2 ⟨?_, ?_⟩, rfl⟩, ?_⟩⟩
    · exact List.mem_iff_getElem?.2 ⟨i, List.getElem?_zip_eq_some.2 ⟨hi, e1⟩⟩
    · simp [r2]
    · rw [e4]; exact List.mem_of_getElem? e3)
  obtain ⟨pts, hpts⟩ : ∃ p, p = List.zipWith (fun ds ts => List.zipWith
      (fun (d : Option ℝ × Option ℝ) t => (⟨d.1, t, d.2.map fun m => -t * m⟩ : DistPoint)) (ds.zip (ds.map
        (mixingRatio c.mixing_ratio_petro c.mixing_ratio_a c.mixing_ratio_b))) ts) dists thick :=
    ⟨_, rfl⟩
  obtain ⟨line, h6⟩ : ∃ l, arrAt pts 0 = .ok l := by
    have hlen : 0 < pts.length := by
      rw [hpts, List.length_zipWith, h2l, l1, min_self]
      obtain ⟨r, hr, -⟩ := ha
      exact List.length_pos_of_mem hr
    exact ⟨_, arrAt_ok.2 (List.getElem?_eq_getElem hlen)⟩
  refine ⟨⟨marks, pts, line, vl, xm⟩, ?_⟩
  unfold distFigureOf
  rw [hpts] at h6 ⊢
  simp only [bind, Except.bind] at h3 h8
  simp only [h1, h2, h3, a1, h5, h6, a2, h8, bind, Except.bind, liftPy]

section shipped

variable (nk : List (ℝ × ℝ)) (sortAges : CraterTable → CraterTable)
  (sortNk : List (ℝ × ℝ) → List (ℝ × ℝ)) (setOrder : List (List Char) → List (List Char))

/-- Distances of a row in terms of the files. -/
theorem shipped_dist (g : Gen σ) (hs : Spec.SortDesc sortAges) (c : RunCfg)
    (hr : Runnable c (shippedData nk sortAges sortNk setOrder))
    (hn : ∀ n ∈ c.coldtrap_names, n ∈ (RunCfg.default 1).coldtrap_names) (df : CraterTable) (s s' : σ)
    (h : craterBasinList g c (shippedData nk sortAges sortNk setOrder) s = .ok (df, s'))
    (hgt : GoodTable c (shippedData nk sortAges sortNk setOrder) df)
    (r : CraterAge ℝ CraterCols) (hrm : r ∈ df) (q : FileRow)
    (hq : q ∈ craterFile ++ basinFile) (hqn : r.rest.crater.cname = q.cname)
    (name : String) (hname : name ∈ c.coldtrap_names) :
    r.rest.crater.rad = q.diam * 500 ∧ ∃ t, TrapNamed name t ∧
      ∀ x, coldtrapDist c.ej (df.map (·.rest.crater)) r.rest.crater name = .ok (some x) ↔
        Outside q t x ∧ (thresholdOf c.ej r.rest.crater < 0 ∨
          x < thresholdOf c.ej r.rest.crater * (q.diam * 500)) := by
  have hrows := shipped_table_rows nk sortAges sortNk setOrder g hs c df _ _ h
  obtain ⟨t, hu⟩ := goodTable_once hr hgt name hname
  have htm : t ∈ (df.map (·.rest.crater)).filter (fun c => decide (c.cname = name)) := by
    rw [hu]; simp
  obtain ⟨htm1, htn⟩ := List.mem_filter.1 htm
  simp only [decide_eq_true_eq] at htn
  obtain ⟨tr, htr, rfl⟩ := List.mem_map.1 htm1
  obtain ⟨qt, t1, t2, t3, t4, t5, t6⟩ := hrows tr htr
  obtain ⟨q', r1, r2, r3, r4, r5, r6⟩ := hrows r hrm
  have hq' : q' ∈ craterFile ++ basinFile := by
    rcases r6 with h | h
    · exact List.mem_append_left _ h.1
    · exact List.mem_append_right _ h.1
  have hqq : q' = q := List.inj_on_of_nodup_map file_names.1 hq' hq (r1.symm.trans hqn)
  subst hqq
  have hdef := hn name hname
  have hqt : qt ∈ craterFile := by
    rcases t6 with h | h
    · exact h.1
    · exfalso
      have : ∀ b ∈ basinFile, b.cname ∉ craterReach.map (·.1) := by decide +kernel
      exact this qt h.1 (by rw [← t1, htn]; exact reach_names.mem_iff.1 hdef)
  have hd0 : (0 : ℝ) < q'.diam := by exact_mod_cast (file_bars q' hq').2.2.2.1
  have e500 : (q'.diam : ℝ) * 1000 / 2 = q'.diam * 500 := by ring
  rw [e500] at r4
  refine ⟨r4, qt, ⟨hqt, by rw [← t1, htn]⟩, ?_⟩
  intro x
  rw [coldtrapDist_eq c.ej _ r.rest.crater tr.rest.crater name hu (by rw [r4]; positivity) x]
  unfold Outside
  rw [← htn, t1, r1, r4, t5]
  constructor
  · rintro ⟨v1, ⟨p, v2, v3⟩, v4, v5⟩
    obtain ⟨pq, w1, w2⟩ := Option.map_eq_some_iff.1 v2
    subst w2
    refine ⟨⟨v1, ⟨pq, w1, ?_⟩, v4⟩, v5⟩
    rw [v3]; unfold surfaceDist; rw [r2, r3]
  · rintro ⟨⟨v1, ⟨pq, w1, v3⟩, v4⟩, v5⟩
    refine ⟨v1, ⟨((pq.1 : ℝ), (pq.2 : ℝ)), by rw [w1]; rfl, ?_⟩, v4, v5⟩
    rw [v3]; unfold surfaceDist; rw [r2, r3]

end shipped

end MoonPIES
