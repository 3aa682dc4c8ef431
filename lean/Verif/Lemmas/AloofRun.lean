import Verif.Spec.Aloof
import Verif.Lemmas.Aloof

/-!
# A run without a crater that reaches no cold trap
-/

namespace MoonPIES

open Spec

variable {σ : Type}

theorem mapM_congr_mem {ε α β : Type} {f f' : α → Except ε β} : ∀ {l : List α}, (∀ a ∈ l, f a = f' a) →
    l.mapM f = l.mapM f'
  | [], _ => rfl
  | a :: l, h => by
    rw [List.mapM_cons, List.mapM_cons, h a (by simp), mapM_congr_mem fun b hb => h b (by simp [hb])]

theorem mapM_const_ok {ε α β : Type} {f : α → Except ε β} {b : β} : ∀ {l : List α}, (∀ a ∈ l, f a = .ok b) →
    l.mapM f = .ok (List.replicate l.length b)
  | [], _ => rfl
  | a :: l, h => by
    rw [List.mapM_cons, h a (by simp), mapM_const_ok fun b hb => h b (by simp [hb])]
    rfl

open Classical in
theorem coldtrapDist_far {cfg : EjCfg} {df : List Crater} {row : Crater} {trap : String}
    (h1 : row.cname ≠ trap) (h2 : (df.filter (fun c => decide (c.cname = trap))).length ≤ 1)
    (h3 : ∀ t ∈ df, t.cname = trap → ∀ p, t.psr = some p → surfaceDist row p.1 p.2 ≤ row.rad ∨
      (0 ≤ thresholdOf cfg row ∧ thresholdOf cfg row * row.rad ≤ surfaceDist row p.1 p.2)) :
    coldtrapDist cfg df row trap = .ok none := by
  unfold coldtrapDist
  simp only [if_neg h1]
  split
  · rfl
  · rename_i t ht
    have hm : t ∈ df.filter (fun c => c.cname = trap) := by rw [ht]; simp
    rw [List.mem_filter, decide_eq_true_eq] at hm
    cases hp : t.psr with
    | none => rfl
    | some p =>
      have h3 := h3 t hm.1 hm.2 p hp
      simp only [gcDist_surface]
      have : ¬ inBlanket row.rad (if row.isbasin then cfg.basin_ej_threshold else cfg.ej_threshold)
          (surfaceDist row p.1 p.2) := by
        intro hb
        obtain ⟨hb1, hb2⟩ := hb
        change if thresholdOf cfg row < 0 then _ else _ at hb2
        rcases h3 with h | ⟨h, h'⟩
        · exact absurd h (not_le.2 hb1)
        · rw [if_neg (not_lt.2 h)] at hb2
          exact absurd h' (not_le.2 hb2)
      simp only [if_neg this, le_refl, if_true]
  · rename_i l h4 h5
    exfalso
    cases hf : df.filter (fun c => c.cname = trap) with
    | nil => exact h4 hf
    | cons a m =>
      cases m with
      | nil => exact h5 a hf
      | cons b m => rw [hf] at h2; simp at h2

theorem coldtrapDist_skip (cfg : EjCfg) (df : List Crater) (x row : Crater) (trap : String) (n : Nat)
    (h : x.cname ≠ trap) : coldtrapDist cfg (df.insertIdx n x) row trap = coldtrapDist cfg df row trap := by
  unfold coldtrapDist
  rw [filter_insertIdx_neg _ (by simpa using h)]

theorem coldtrapDists_skip {cfg : EjCfg} {df : List Crater} {x : Crater} {names : List String} {n : Nat}
    (hn : n ≤ df.length) (h : ∀ t ∈ names, x.cname ≠ t)
    (h2 : ∀ t ∈ names, (df.filter (fun c => decide (c.cname = t))).length ≤ 1)
    (h3 : ∀ t ∈ df, t.cname ∈ names → ∀ p, t.psr = some p → surfaceDist x p.1 p.2 ≤ x.rad ∨
      (0 ≤ thresholdOf cfg x ∧ thresholdOf cfg x * x.rad ≤ surfaceDist x p.1 p.2)) :
    coldtrapDists cfg (df.insertIdx n x) names =
      (coldtrapDists cfg df names).map (fun m => m.insertIdx n (List.replicate names.length none)) := by
  unfold coldtrapDists
  have e : (fun row => names.mapM (fun trap => coldtrapDist cfg (df.insertIdx n x) row trap)) =
      fun row => names.mapM (fun trap => coldtrapDist cfg df row trap) := by
    funext row
    exact mapM_congr_mem fun t ht => coldtrapDist_skip cfg df x row t n (h t ht)
  rw [e]
  refine mapM_insertIdx _ ?_ n df hn
  refine mapM_const_ok fun t ht => coldtrapDist_far (h t ht) (h2 t ht) ?_
  intro u hu hut
  exact h3 u hu (hut ▸ ht)

theorem thicknessMatrix_skip (c : RunCfg) (df : CraterTable) (dists : List (List (Option ℝ)))
    (r : CraterAge ℝ CraterCols) (k n : Nat) (hn : n ≤ df.length) (hd : dists.length = df.length) :
    thicknessMatrix c (df.insertIdx n r) (dists.insertIdx n (List.replicate k none)) =
      (thicknessMatrix c df dists).map (fun m => m.insertIdx n (List.replicate k 0)) := by
  unfold thicknessMatrix
  rw [zip_insertIdx _ _ _ _ _ hn (by omega)]
  refine mapM_insertIdx _ ?_ n _ (by simp; omega)
  have := mapM_const_ok (ε := RunErr) (b := (0 : ℝ)) (l := List.replicate k (none : Option ℝ))
    (f := fun d => finiteOf (ejThickness c.ej d r.rest.crater.rad)) (by
      intro a ha
      rw [List.eq_of_mem_replicate ha]
      rfl)
  simpa using this

theorem ejectaThicknessTime_skip (c : RunCfg) (time : List ℝ) (df : CraterTable) (thick : List ℝ)
    (r : CraterAge ℝ CraterCols) (n : Nat) (hn : n ≤ df.length) (ht : thick.length = df.length)
    (hm : 0 ≤ c.thickness_min) :
    ejectaThicknessTime RunCfg.rtol c.thickness_min time (ejRows (df.insertIdx n r) (thick.insertIdx n 0)) =
      ejectaThicknessTime RunCfg.rtol c.thickness_min time (ejRows df thick) := by
  unfold ejectaThicknessTime ejRows
  rw [zipWith_insertIdx _ _ _ _ _ _ hn (by omega), List.map_insertIdx, List.map_insertIdx,
    ages2time_skip _ _ nansum 0 (fun _ => True) trivial (fun _ _ _ => trivial) (by intro a _; simp [nansum]) _ _ _
      (by simp; omega)]
  simp only [gt_iff_lt, if_neg (not_lt.2 hm)]
  rw [ages2time_skip _ _ (fun (acc s : String) => acc ++ s) "" (fun _ => True) trivial (fun _ _ _ => trivial)
    (by intro a _; simp) _ _ _ (by simp; omega)]

theorem icyRows_skip (c : RunCfg) (df : CraterTable) (r : CraterAge ℝ CraterCols) (n : Nat) (h : BringsNoIce r) :
    icyRows c (df.insertIdx n r) = icyRows c df := by
  unfold icyRows
  refine filter_insertIdx_neg _ ?_ n df
  cases hb : r.rest.crater.isbasin with
  | false => rfl
  | true =>
    obtain ⟨h1, h2⟩ := h hb
    cases c.is_comet <;> simp [h1, h2]

theorem iceCols_skip (g : Gen σ) (c : RunCfg) (d : RunData) (df : CraterTable) (time : List ℝ) (s : σ)
    (r : CraterAge ℝ CraterCols) (n : Nat) (h : BringsNoIce r) :
    iceCols g c d (df.insertIdx n r) time s = iceCols g c d df time s := by
  have e : ∀ (c : RunCfg) s, impactIce g c (df.insertIdx n r) time s = impactIce g c df time s := by
    intro c s
    unfold impactIce iceBasins
    rw [icyRows_skip c df r n h]
  unfold iceCols polarIce impactIceComet
  simp only [e]

theorem trapAges_skip (df : CraterTable) (names : List String) (r : CraterAge ℝ CraterCols) (n : Nat)
    (h : r.rest.crater.cname ∉ names) : trapAges (df.insertIdx n r) names = trapAges df names := by
  unfold trapAges
  rw [mapM_congr_mem (f' := rowsNamed df)]
  intro t ht
  unfold rowsNamed
  rw [filter_insertIdx_neg]
  simp only [decide_eq_false_iff_not]
  exact fun e => h (e ▸ ht)

theorem mapM_ok_mem_inv {ε α β : Type} {f : α → Except ε β} : ∀ {l : List α} {m : List β}, l.mapM f = .ok m →
    ∀ b ∈ m, ∃ a ∈ l, f a = .ok b
  | [], m, h, b, hb => by cases h; cases hb
  | a :: l, m, h, b, hb => by
    rw [List.mapM_cons] at h
    cases h1 : f a with
    | error e => rw [h1] at h; cases h
    | ok x =>
      cases h2 : l.mapM f with
      | error e => rw [h1, h2] at h; cases h
      | ok xs =>
        rw [h1, h2] at h
        injection h with h
        subst h
        rcases List.mem_cons.1 hb with rfl | hb
        · exact ⟨a, by simp, h1⟩
        · obtain ⟨a', h3, h4⟩ := mapM_ok_mem_inv h2 b hb
          exact ⟨a', by simp [h3], h4⟩

theorem initStratCols_skip (g : Gen σ) (c : RunCfg) (d : RunData) (time : List ℝ) (df : CraterTable)
    (thick : List (List ℝ)) (s : σ) (r : CraterAge ℝ CraterCols) (n : Nat) (hn : n ≤ df.length)
    (hl : thick.length = df.length) (hr : ∀ row ∈ thick, row.length = c.coldtrap_names.length)
    (hm : 0 ≤ c.thickness_min) (h : BringsNoIce r) :
    initStratCols g c d time (df.insertIdx n r) (thick.insertIdx n (List.replicate c.coldtrap_names.length 0)) s =
      initStratCols g c d time df thick s := by
  unfold initStratCols
  rw [iceCols_skip g c d df time s r n h]
  rw [mapM_congr_mem (f' := fun i => ejectaThicknessTime RunCfg.rtol c.thickness_min time
    (ejRows df (column thick i)))]
  intro i hi
  have hi : i < c.coldtrap_names.length := by simpa using hi
  have hc : ∀ row ∈ thick, i < row.length := fun row h => by rw [hr row h]; exact hi
  rw [column_insertIdx (v := 0) (by simp [hi]) n thick (by omega) hc]
  exact ejectaThicknessTime_skip c time df _ r n hn (by rw [column_length_eq hc, hl]) hm

theorem bsedArrays_skip (c : RunCfg) (d : RunData) (time : List ℝ) (df : CraterTable)
    (dists : List (List (Option ℝ))) (thick : List (List ℝ)) (r : CraterAge ℝ CraterCols) (n : Nat)
    (hn : n ≤ df.length) (hd : dists.length = df.length) (hdr : ∀ row ∈ dists, row.length = c.coldtrap_names.length)
    (hl : thick.length = df.length) (hr : ∀ row ∈ thick, row.length = c.coldtrap_names.length)
    (hT : c.ballistic_sed = false ∨ FamiliarTemp c d.melt df r) :
    bsedArrays c d time (df.insertIdx n r) (dists.insertIdx n (List.replicate c.coldtrap_names.length none))
      (thick.insertIdx n (List.replicate c.coldtrap_names.length 0)) = bsedArrays c d time df dists thick := by
  unfold bsedArrays
  have e : (List.range c.coldtrap_names.length).map (fun i =>
      (column (dists.insertIdx n (List.replicate c.coldtrap_names.length none)) i,
        column (thick.insertIdx n (List.replicate c.coldtrap_names.length 0)) i)) =
      ((List.range c.coldtrap_names.length).map (fun i => (column dists i, column thick i))).map
        (fun tr => (tr.1.insertIdx n none, tr.2.insertIdx n 0)) := by
    rw [List.map_map]
    refine List.map_congr_left fun i hi => ?_
    have hi : i < c.coldtrap_names.length := by simpa using hi
    rw [column_insertIdx (v := 0) (by simp [hi]) n thick (by omega) (fun row h => by rw [hr row h]; exact hi),
      column_insertIdx (v := none) (by simp [hi]) n dists (by omega) (fun row h => by rw [hdr row h]; exact hi)]
    rfl
  simp only [e, List.map_insertIdx]
  rw [bsedDepth_skip c.bsed d.melt _ rfl time (df.map (·.age)) (df.map (·.rest.crater.isbasin)) _ _ _ n (by simpa using hn)
    (by simp)]
  · intro tr htr
    obtain ⟨i, hi, rfl⟩ := List.mem_map.1 htr
    have hi : i < c.coldtrap_names.length := by simpa using hi
    simp only [List.length_map]
    rw [column_length_eq (fun row h => by rw [hdr row h]; exact hi),
      column_length_eq (fun row h => by rw [hr row h]; exact hi)]
    exact ⟨hd, hl⟩
  · rcases hT with h | ⟨q, hq, hb⟩ | h
    · exact .inl h
    · exact .inr (.inl (List.mem_map.2 ⟨q, hq, hb⟩))
    · exact .inr (.inr (List.mem_map.2 ⟨_, h, rfl⟩))

theorem runFrom_skip (g : Gen σ) (c : RunCfg) (d : RunData) (time : List ℝ) (df : CraterTable) (s : σ)
    (r : CraterAge ℝ CraterCols) (n : Nat) (hn : n ≤ df.length) (hr : ReachesNone c df r) (hi : BringsNoIce r)
    (hu : ∀ t ∈ c.coldtrap_names, (df.filter (fun q => decide (q.rest.crater.cname = t))).length ≤ 1)
    (hm : 0 ≤ c.thickness_min) (hT : c.ballistic_sed = false ∨ FamiliarTemp c d.melt df r) :
    runFrom g c d time (df.insertIdx n r) s = runFrom g c d time df s := by
  unfold runFrom
  rw [List.map_insertIdx, coldtrapDists_skip (by simpa using hn) (fun t ht e => hr.notTrap (e ▸ ht))
    (fun t ht => by
      rw [List.filter_map, List.length_map]; exact hu t ht)
    (fun t ht htn p hp => by
      obtain ⟨q, hq, rfl⟩ := List.mem_map.1 ht
      exact hr.far q hq htn p hp)]
  cases hd : coldtrapDists c.ej (df.map (·.rest.crater)) c.coldtrap_names with
  | error e => rfl
  | ok dists =>
    have hdl := (mapM_ok_inv _ _ _ hd).1
    have hdr : ∀ row ∈ dists, row.length = c.coldtrap_names.length := by
      intro row hrow
      obtain ⟨a, -, ha⟩ := mapM_ok_mem_inv hd row hrow
      exact (mapM_ok_inv _ _ _ ha).1
    rw [List.length_map] at hdl
    simp only [Except.map, liftPy, bind, Except.bind]
    rw [thicknessMatrix_skip c df dists r _ n hn hdl]
    cases ht : thicknessMatrix c df dists with
    | error e => rfl
    | ok thick =>
      have htl : thick.length = df.length := by
        rw [(mapM_ok_inv _ _ _ ht).1, List.length_zip, hdl, Nat.min_self]
      have htr : ∀ row ∈ thick, row.length = c.coldtrap_names.length := by
        intro row hrow
        obtain ⟨a, ha, ha'⟩ := mapM_ok_mem_inv ht row hrow
        rw [(mapM_ok_inv _ _ _ ha').1]
        exact hdr _ (List.of_mem_zip ha).2
      simp only [Except.map]
      rw [initStratCols_skip g c d time df thick s r n hn htl htr hm hi,
        bsedArrays_skip c d time df dists thick r n hn hdl hdr htl htr hT]
      have hf : ∀ cols, formatCsv c d time (df.insertIdx n r) cols = formatCsv c d time df cols := by
        intro cols
        unfold formatCsv
        rw [trapAges_skip df _ r n hr.notTrap]
      simp only [hf]

end MoonPIES
