import Verif.Spec.AgesFig
import Verif.Lemmas.RngArg

/-!
# Lemmas on the figure of crater and basin ages
-/

namespace MoonPIES

open Spec

variable {σ : Type}

theorem foldl_max_pos : ∀ (l : List ℝ) (x : ℝ), 0 < l.foldl max x ↔ 0 < x ∨ ∃ y ∈ l, 0 < y
  | [], x => by simp
  | a :: l, x => by
    rw [List.foldl_cons, foldl_max_pos l, lt_max_iff]
    simp only [List.mem_cons, exists_eq_or_imp]
    tauto

theorem rowMax_pos (l : List ℝ) (h : l ≠ []) : ∃ m, rowMax l = .ok m ∧ (0 < m ↔ ∃ y ∈ l, 0 < y) := by
  cases l with
  | nil => exact absurd rfl h
  | cons a l =>
    refine ⟨_, rfl, ?_⟩
    rw [foldl_max_pos]
    simp

open Classical in
/-- The row with its new name. -/
noncomputable def starRow (traps : List String) (r : CraterAge ℝ CraterCols) :
    CraterAge ℝ CraterCols :=
  if Hits traps r.rest.crater.cname ∧ r.rest.crater.isbasin = true then
    { r with rest := { r.rest with crater :=
      { r.rest.crater with cname := "*" ++ r.rest.crater.cname } } }
  else r

theorem starRow_basin (traps : List String) (r : CraterAge ℝ CraterCols) :
    (starRow traps r).rest.crater.isbasin = r.rest.crater.isbasin ∧
    (starRow traps r).age = r.age ∧ (starRow traps r).ageLow = r.ageLow ∧
    (starRow traps r).ageUpp = r.ageUpp := by
  unfold starRow
  split <;> exact ⟨rfl, rfl, rfl, rfl⟩

theorem starRow_name (traps : List String) (r : CraterAge ℝ CraterCols) :
    (starRow traps r).rest.crater.cname = if r.rest.crater.isbasin = true
      then basinTick traps r.rest.crater.cname else r.rest.crater.cname := by
  unfold starRow basinTick
  by_cases h1 : Hits traps r.rest.crater.cname <;> by_cases h2 : r.rest.crater.isbasin = true <;>
    simp [h1, h2]

section shipped

variable (nk : List (ℝ × ℝ)) (sortAges : CraterTable → CraterTable)
  (sortNk : List (ℝ × ℝ) → List (ℝ × ℝ)) (setOrder : List (List Char) → List (List Char))

theorem file_names : ((craterFile ++ basinFile).map (·.cname)).Nodup ∧
    (∀ q ∈ craterFile ++ basinFile, q.cname.toList.head? ≠ some '*') ∧
    ∀ n ∈ ["Nectaris", "Imbrium"], ∃ q ∈ basinFile, q.cname = n := by decide +kernel

theorem file_split :
    ((craterFile ++ basinFile).map (·.cname)).filter (fun n => decide (n ∈ basinFile.map (·.cname))) =
      basinFile.map (·.cname) ∧
    ((craterFile ++ basinFile).map (·.cname)).filter (fun n => !decide (n ∈ basinFile.map (·.cname))) =
      craterFile.map (·.cname) := by decide +kernel

/-- A row in terms of its line in the files. -/
def RowOf (ts : ℝ) (q : FileRow) (r : CraterAge ℝ CraterCols) : Prop :=
  r.rest.crater.cname = q.cname ∧
  ((q ∈ craterFile ∧ r.rest.crater.isbasin = false) ∨
    (q ∈ basinFile ∧ r.rest.crater.isbasin = true)) ∧
  r.ageLow = q.age_low * 1e9 ∧ r.ageUpp = q.age_upp * 1e9 ∧
  (q.age - q.age_low) * 1e9 - ts / 2 ≤ r.age ∧ r.age ≤ (q.age + q.age_upp) * 1e9 + ts / 2 ∧
  ∃ n : ℤ, r.age = n * ts

theorem table_rowOf (g : Gen σ) (hs : Spec.SortDesc sortAges) (c : RunCfg) (df : CraterTable)
    (s s' : σ)
    (h : craterBasinList g c (shippedData nk sortAges sortNk setOrder) s = .ok (df, s'))
    (hg : GoodTable c (shippedData nk sortAges sortNk setOrder) df) :
    ∀ r ∈ df, ∃ q, RowOf c.timestep q r := by
  intro r hr
  obtain ⟨q, q1, -, -, -, -, q2⟩ := shipped_table_rows nk sortAges sortNk setOrder g hs c df s s' h r hr
  obtain ⟨raw, h1, b, icy, h2, h3, h4, h5, h6, h7⟩ := hg.rows r hr
  obtain ⟨q', hq', rfl⟩ := shipped_rows _ _ _ _ h1
  have hqq : q' = q := by
    have hq : q ∈ craterFile ++ basinFile := by
      rcases q2 with ⟨q2, -⟩ | ⟨q2, -⟩
      · exact List.mem_append_left _ q2
      · exact List.mem_append_right _ q2
    refine List.inj_on_of_nodup_map file_names.1 hq' hq ?_
    rw [← q1, h4]; rfl
  subst hqq
  refine ⟨q', q1, q2, h2, h3, ?_, ?_, h7⟩
  · rw [sub_mul]; exact h5
  · rw [add_mul]; exact h6

/-- What the figure computes before it looks for the eras. -/
theorem agesFigure_eq (g : Gen σ) (hg : LawfulGen g) (hs : Spec.SortDesc sortAges) (c : RunCfg)
    (hc : PhysicalCfg c) (hd : PhysicalData c (shippedData nk sortAges sortNk setOrder))
    (hr : Runnable c (shippedData nk sortAges sortNk setOrder)) (he : c.ej = EjCfg.default)
    (hn : ∀ n ∈ c.coldtrap_names, n ∈ (RunCfg.default 1).coldtrap_names) (e1 e2 : σ) :
    ∃ df s', craterBasinList g.pair c (shippedData nk sortAges sortNk setOrder) (e1, e2) = .ok (df, s') ∧
      GoodTable c (shippedData nk sortAges sortNk setOrder) df ∧
      agesFigure g c (shippedData nk sortAges sortNk setOrder) e1 e2 = (do
        let df := df.map (starRow c.coldtrap_names)
        let dc := df.filter fun r => !r.rest.crater.isbasin
        let db := df.filter fun r => r.rest.crater.isbasin
        let nec ← liftPy (ageAt db "*Nectaris")
        let imb ← liftPy (ageAt db "Imbrium")
        let eras := agesEras nec imb
        .ok { craters := agePanel false dc eras, basins := agePanel true db eras, eras := eras }) := by
  obtain ⟨df, s', hdf, p1, p2⟩ := craterBasinList_ok g.pair (pair_lawful hg) hc hd hr (e1, e2)
  have hgt : GoodTable c _ df := ⟨p1, p2⟩
  obtain ⟨m, hm⟩ := coldtrapDists_ok hr hgt
  obtain ⟨th, hth, hthl, -⟩ := thicknessMatrix_ok hc hr hgt m hm
  refine ⟨df, s', hdf, hgt, ?_⟩
  have hmap := craterList_none g c (shippedData nk sortAges sortNk setOrder) e1 e2
  rw [hdf] at hmap
  obtain ⟨r', hr'⟩ : ∃ r', craterBasinListRng g c (shippedData nk sortAges sortNk setOrder) e1 e2
      .none = .ok (df, r') := by
    cases h : craterBasinListRng g c (shippedData nk sortAges sortNk setOrder) e1 e2 .none with
    | error x => rw [h] at hmap; cases hmap
    | ok p =>
      rw [h] at hmap
      injection hmap with hmap
      simp only at hmap
      exact ⟨p.2, by rw [← hmap]⟩
  have hstar : (df.zip th).mapM (fun p => starred p.1 p.2) =
      .ok (df.map (starRow c.coldtrap_names)) := by
    rw [mapM_all _ (fun p => starRow c.coldtrap_names p.1)]
    · congr 1
      rw [show (fun p : CraterAge ℝ CraterCols × List ℝ => starRow c.coldtrap_names p.1) =
        (starRow c.coldtrap_names) ∘ Prod.fst from rfl, ← List.map_map, List.map_fst_zip (by omega)]
    · rintro ⟨r, row⟩ hp
      obtain ⟨k, k1, k2⟩ := mem_zip_get.1 hp
      have hrm : r ∈ df := List.mem_of_getElem? k1
      have hlen : row.length = c.coldtrap_names.length := by
        obtain ⟨n, hn'⟩ := List.exists_mem_of_ne_nil _ hr.names
        obtain ⟨j, hj⟩ := List.mem_iff_getElem?.1 hn'
        exact (thickness_rows c df m th hm hth j n hj).1 row (List.mem_of_getElem? k2)
      have hne : row ≠ [] := by
        intro h
        rw [h] at hlen
        exact hr.names (List.length_eq_zero_iff.1 hlen.symm)
      have hval : ∀ (j : Nat) n x, c.coldtrap_names[j]? = some n → row[j]? = some x →
          RowEjecta c df n r x := by
        intro j n x hj hx
        obtain ⟨t1, t2⟩ := thickness_rows c df m th hm hth j n hj
        obtain ⟨m1, m2⟩ := column_spec (List.getElem?_eq_some_iff.1 hj).1 th t1
        have := m2 k row k2
        rw [hx] at this
        exact (List.forall₂_iff_zip.1 t2).2 (mem_zip_get.2 ⟨k, k1, this⟩)
      obtain ⟨mx, hmx, hpos⟩ := rowMax_pos row hne
      have hiff : 0 < mx ↔ Hits c.coldtrap_names r.rest.crater.cname := by
        rw [hpos]
        constructor
        · rintro ⟨y, hy, hy0⟩
          obtain ⟨j, hj⟩ := List.mem_iff_getElem?.1 hy
          have hjl : j < c.coldtrap_names.length := by
            rw [← hlen]; exact (List.getElem?_eq_some_iff.1 hj).1
          have hnj := List.getElem?_eq_getElem hjl
          refine ⟨_, List.getElem_mem hjl, ?_⟩
          by_contra hno
          have := (C113_thickness nk sortAges sortNk setOrder g.pair (pair_lawful hg) hs c hc hd hr he hn
            df _ _ hdf r hrm _ (List.getElem_mem hjl) y (hval j _ y hnj hj)).2 hno
          linarith
        · rintro ⟨n, hnm, hin⟩
          obtain ⟨j, hj⟩ := List.mem_iff_getElem?.1 hnm
          have hjl : j < row.length := by
            rw [hlen]; exact (List.getElem?_eq_some_iff.1 hj).1
          refine ⟨row[j], List.getElem_mem hjl, ?_⟩
          have := (C113_thickness nk sortAges sortNk setOrder g.pair (pair_lawful hg) hs c hc hd hr he hn
            df _ _ hdf r hrm n hnm _ (hval j n _ hj (List.getElem?_eq_getElem hjl))).1 hin
          linarith
      show starred r row = .ok (starRow c.coldtrap_names r)
      unfold starred starRow
      rw [hmx]
      simp only [bind, Except.bind]
      by_cases h : Hits c.coldtrap_names r.rest.crater.cname ∧ r.rest.crater.isbasin = true
      · rw [if_pos h, if_pos ⟨hiff.2 h.1, h.2⟩]
      · rw [if_neg h, if_neg (fun k => h ⟨hiff.1 k.1, k.2⟩)]
  unfold agesFigure
  simp only [bind, Except.bind, hr', hm, hth, liftPy, hstar]

theorem filter_star_basin (traps : List String) (df : CraterTable) (b : Bool) :
    (df.map (starRow traps)).filter (fun r => r.rest.crater.isbasin == b) =
      (df.filter (fun r => r.rest.crater.isbasin == b)).map (starRow traps) := by
  rw [List.filter_map]
  congr 2
  funext r
  simp [(starRow_basin traps r).1]

theorem star_inj {a b : String} (h : "*" ++ a = "*" ++ b) : a = b := by
  have := congrArg String.toList h
  rw [String.toList_append, String.toList_append] at this
  exact String.toList_inj.1 (List.append_cancel_left this)

theorem basinTick_star (traps : List String) (q : FileRow) (hq : q ∈ craterFile ++ basinFile)
    (n : String) : basinTick traps q.cname = "*" ++ n ↔ q.cname = n ∧ Hits traps n := by
  unfold basinTick
  split
  · rename_i h
    constructor
    · intro e
      have := star_inj e
      exact ⟨this, this ▸ h⟩
    · rintro ⟨e, -⟩; rw [e]
  · rename_i h
    constructor
    · intro e
      have := file_names.2.1 q hq
      rw [e, String.toList_append] at this
      exact absurd rfl this
    · rintro ⟨e, h'⟩; rw [e] at h; exact absurd h' h

theorem basinTick_plain (traps : List String) (q : FileRow) (hq : q ∈ craterFile ++ basinFile) :
    basinTick traps q.cname = q.cname ↔ ¬ Hits traps q.cname := by
  unfold basinTick
  split
  · rename_i h
    simp only [h, not_true_eq_false, iff_false]
    intro e
    have := file_names.2.1 q hq
    rw [← e, String.toList_append] at this
    exact absurd rfl this
  · rename_i h
    simp [h]

/-- The age found for a label that one listed basin has. -/
theorem ageAt_one (c : RunCfg) (df : CraterTable)
    (hg : GoodTable c (shippedData nk sortAges sortNk setOrder) df)
    (hrows : ∀ r ∈ df, ∃ q, RowOf c.timestep q r) (q : FileRow) (hq : q ∈ basinFile) (label : String)
    (hl : ∀ q' ∈ basinFile, basinTick c.coldtrap_names q'.cname = label ↔ q'.cname = q.cname) :
    ∃ r ∈ df, RowOf c.timestep q r ∧ r.rest.crater.isbasin = true ∧
      ageAt ((df.filter (fun r => r.rest.crater.isbasin == true)).map (starRow c.coldtrap_names)) label =
        .ok (r.age / 1e9) := by
  have hnd : (df.map (fun r => r.rest.crater.cname)).Nodup := by
    rw [hg.perm.nodup_iff]
    have := file_names.1
    simp only [shippedData, List.map_append, List.map_map, Function.comp_def] at this ⊢
    exact this
  have hcount : (df.map (fun r => r.rest.crater.cname)).count q.cname = 1 := by
    apply List.count_eq_one_of_mem hnd
    rw [hg.perm.mem_iff]
    simp only [shippedData, List.map_append, List.map_map, Function.comp_def]
    exact List.mem_append_right _ (List.mem_map_of_mem hq)
  have hfil : ((df.filter (fun r => r.rest.crater.isbasin == true)).map
      (starRow c.coldtrap_names)).filter (fun r => decide (r.rest.crater.cname = label)) =
      (df.filter (fun r => decide (r.rest.crater.cname = q.cname))).map (starRow c.coldtrap_names) := by
    rw [List.filter_map, List.filter_filter]
    congr 1
    apply List.filter_congr
    intro r hr
    obtain ⟨q', q1, q2, -⟩ := hrows r hr
    simp only [Function.comp_apply, starRow_name, q1]
    rcases q2 with ⟨m, hb⟩ | ⟨m, hb⟩
    · have : q'.cname ≠ q.cname := by
        intro e
        have := List.inj_on_of_nodup_map file_names.1 (List.mem_append_left basinFile m)
          (List.mem_append_right craterFile hq) e
        have h2 := file_names.1
        rw [List.map_append, List.nodup_append] at h2
        exact h2.2.2 _ (List.mem_map_of_mem m) _ (List.mem_map_of_mem hq) e
      simp [hb, this]
    · simp [hb, hl q' m]
  have hone : (df.filter (fun r => decide (r.rest.crater.cname = q.cname))).length = 1 := by
    rw [← hcount, List.count_eq_length_filter, List.filter_map, List.length_map]
    congr 2
  obtain ⟨r, hr⟩ := List.length_eq_one_iff.1 hone
  have hm : r ∈ df.filter (fun r => decide (r.rest.crater.cname = q.cname)) := by rw [hr]; simp
  obtain ⟨m1, m2⟩ := List.mem_filter.1 hm
  simp only [decide_eq_true_eq] at m2
  obtain ⟨q', hq'⟩ := hrows r m1
  have hqq : q' = q := by
    refine List.inj_on_of_nodup_map file_names.1 ?_ (List.mem_append_right craterFile hq)
      (hq'.1.symm.trans m2)
    rcases hq'.2.1 with ⟨m, -⟩ | ⟨m, -⟩
    · exact List.mem_append_left _ m
    · exact List.mem_append_right _ m
  subst hqq
  have hbas : r.rest.crater.isbasin = true := by
    rcases hq'.2.1 with ⟨m, -⟩ | ⟨-, m⟩
    · exfalso
      have h2 := file_names.1
      rw [List.map_append, List.nodup_append] at h2
      exact h2.2.2 _ (List.mem_map_of_mem m) _ (List.mem_map_of_mem hq) rfl
    · exact m
  refine ⟨r, m1, hq', hbas, ?_⟩
  unfold ageAt
  rw [hfil, hr]
  simp only [List.map_cons, List.map_nil, (starRow_basin c.coldtrap_names r).2.1]

end shipped

end MoonPIES
