import Verif.Model.StatsScript
import Verif.Model.Shipped
import Verif.Model.RunCfg
import Verif.Lemmas.RngArg
import Mathlib.Tactic.FieldSimp

/-!
# C124: bulk statistics of ensemble runs
-/

namespace MoonPIES

/-- Spec: `s` is the sum of the column of a cold trap, when a file has a time and then one column for
each default cold trap, in the order of the configuration. -/
def Spec.IceTotal (name : String) (file : List (List ℝ)) (s : ℝ) : Prop :=
  ∃ k col, (RunCfg.default 1).coldtrap_names[k]? = some name ∧ file[k + 1]? = some col ∧ s = col.sum

/-- Spec: the sums of a cold trap in all runs. -/
def Spec.IceTotals (name : String) (files : List (List (List ℝ))) (data : List ℝ) : Prop :=
  List.Forall₂ (Spec.IceTotal name) files data

/-- Spec: mean, largest, smallest value, standard deviation and standard error of data. -/
structure Spec.StatsOf (data : List ℝ) (mean max min sd se : ℝ) : Prop where
  mean_eq : mean * data.length = data.sum
  max_mem : max ∈ data
  max_le : ∀ x ∈ data, x ≤ max
  min_mem : min ∈ data
  min_le : ∀ x ∈ data, min ≤ x
  sd_nonneg : 0 ≤ sd
  sd_eq : sd ^ 2 * data.length = (data.map fun x => (x - mean) ^ 2).sum
  se_nonneg : 0 ≤ se
  se_eq : se ^ 2 * data.length = sd ^ 2

open Spec

/-- The columns of a file in the order of `col_names_new`. -/
def statPos : List Nat := [12, 10, 6, 11, 7, 3, 1, 2, 5, 8, 9, 4]

theorem netIceRow_eq (file : List (List ℝ)) (h : file.length = 13) :
    netIceRow file = .ok (statPos.map fun p => (file.getD p []).sum) := by
  match file, h with
  | [a, b, c, d, e, f, g, h, i, j, k, l, m], _ => rfl

theorem netIceRow_any (file : List (List ℝ)) :
    netIceRow file = .ok (statPos.map fun p =>
      ((file.drop (file.length - 13) ++ List.replicate (13 - file.length) []).getD p []).sum) := by
  have hl : (file.drop (file.length - 13) ++ List.replicate (13 - file.length) []).length = 13 := by
    rw [List.length_append, List.length_drop, List.length_replicate]
    omega
  unfold netIceRow statsRead
  have h13 : statsCols.length = 13 := rfl
  rw [h13]
  obtain ⟨cols, hcols⟩ : ∃ t, t = file.drop (file.length - 13) ++ List.replicate (13 - file.length) [] :=
    ⟨_, rfl⟩
  rw [← hcols] at hl ⊢
  match cols, hl with
  | [a, b, c, d, e, f, g, h, i, j, k, l, m], _ => rfl

/-- **C124** files of runs with another number of cold traps are read by position: with fewer columns
the last names get nothing, with more columns the first ones are passed over.  A missing column never
raises. -/
theorem C124_other_files (file : List (List ℝ)) : ∃ row, netIceRow file = .ok row ∧ row.length = 12 ∧
    ∀ (i p : Nat), statPos[i]? = some p →
      (∀ col, file[p + (file.length - 13)]? = some col → row[i]? = some col.sum) ∧
      (file.length ≤ p → row[i]? = some 0) := by
  refine ⟨_, netIceRow_any file, by rw [List.length_map]; rfl, fun i p hp => ⟨fun col hc => ?_, fun h => ?_⟩⟩
  · rw [List.getElem?_map, hp]
    have hlt := (List.getElem?_eq_some_iff.1 hc).1
    rw [Option.map_some, List.getD_eq_getElem?_getD, List.getElem?_append_left (by
      rw [List.length_drop]; omega), List.getElem?_drop, Nat.add_comm, hc]
    rfl
  · rw [List.getElem?_map, hp]
    have hp13 : p < 13 := by
      have : ∀ q ∈ statPos, q < 13 := by decide
      exact this p (List.mem_of_getElem? hp)
    have h0 : file.length - 13 = 0 := by omega
    rw [Option.map_some, List.getD_eq_getElem?_getD, h0, List.drop_zero,
      List.getElem?_append_right (by omega), List.getElem?_replicate, if_pos (by omega)]
    simp

/-- **C124 refuted**: in the file of a run of Cabeus alone the ice is taken for that of Haworth (the
seventh tick), and Cabeus (the fifth tick) has none. -/
theorem C124_other_files_refuted : ¬ ∀ (name : String) (time ice : List ℝ) (row : List ℝ) (i : Nat),
    netIceRow [time, ice] = .ok row → (statsColsNew.drop 1)[i]? = some name → name = "Cabeus" →
    row[i]? = some ice.sum := by
  intro h
  obtain ⟨row, h1, -, h2⟩ := C124_other_files [[0], [1]]
  have h3 := h "Cabeus" [0] [1] row 4 h1 rfl rfl
  rw [(h2 4 7 rfl).2 (by simp)] at h3
  norm_num at h3

theorem netIce_eq (files : List (List (List ℝ))) (h : ∀ f ∈ files, f.length = 13) :
    netIce files = .ok (files.map fun f => statPos.map fun p => (f.getD p []).sum) := by
  unfold netIce
  induction files with
  | nil => rfl
  | cons f l ih =>
    rw [List.mapM_cons, netIceRow_eq f (h f (by simp)), ih (fun g hg => h g (by simp [hg]))]
    rfl

theorem netCol_eq (files : List (List (List ℝ))) (i p : Nat) (hp : statPos[i]? = some p) :
    netCol (files.map fun f => statPos.map fun p => (f.getD p []).sum) i =
      .ok (files.map fun f => (f.getD p []).sum) := by
  unfold netCol
  induction files with
  | nil => rfl
  | cons f l ih =>
    rw [List.map_cons, List.mapM_cons, ih, List.getElem?_map, hp]
    rfl

theorem statMax_spec (l : List ℝ) (x : ℝ) :
    l.foldl Max.max x ∈ x :: l ∧ ∀ y ∈ x :: l, y ≤ l.foldl Max.max x := by
  induction l generalizing x with
  | nil => simp
  | cons z l ih =>
    obtain ⟨h1, h2⟩ := ih (Max.max x z)
    rw [List.foldl_cons]
    refine ⟨?_, ?_⟩
    · rcases List.mem_cons.1 h1 with h | h
      · rcases max_choice x z with e | e <;> rw [h, e] <;> simp
      · simp [h]
    · intro y hy
      have h3 := h2 (Max.max x z) (by simp)
      rcases List.mem_cons.1 hy with rfl | hy
      · exact le_trans (le_max_left _ _) h3
      · rcases List.mem_cons.1 hy with rfl | hy
        · exact le_trans (le_max_right _ _) h3
        · exact h2 y (by simp [hy])

theorem statMin_spec (l : List ℝ) (x : ℝ) :
    l.foldl Min.min x ∈ x :: l ∧ ∀ y ∈ x :: l, l.foldl Min.min x ≤ y := by
  induction l generalizing x with
  | nil => simp
  | cons z l ih =>
    obtain ⟨h1, h2⟩ := ih (Min.min x z)
    rw [List.foldl_cons]
    refine ⟨?_, ?_⟩
    · rcases List.mem_cons.1 h1 with h | h
      · rcases min_choice x z with e | e <;> rw [h, e] <;> simp
      · simp [h]
    · intro y hy
      have h3 := h2 (Min.min x z) (by simp)
      rcases List.mem_cons.1 hy with rfl | hy
      · exact le_trans h3 (min_le_left _ _)
      · rcases List.mem_cons.1 hy with rfl | hy
        · exact le_trans h3 (min_le_right _ _)
        · exact h2 y (by simp [hy])

theorem meanR_nonneg (l : List ℝ) (h : ∀ x ∈ l, 0 ≤ x) : 0 ≤ meanR l :=
  div_nonneg (List.sum_nonneg h) (Nat.cast_nonneg _)

theorem statRow_ok (label : String) (data : List ℝ) (h : data ≠ []) :
    ∃ r, statRow label data = .ok r ∧ r.label = label ∧ StatsOf data r.mean r.max r.min r.sd r.se := by
  match data, h with
  | x :: l, _ =>
    have hn : (0 : ℝ) < (((x :: l).length : ℕ) : ℝ) := by
      rw [List.length_cons]; positivity
    have hv : 0 ≤ meanR ((x :: l).map fun y => (y - meanR (x :: l)) ^ 2) := by
      apply meanR_nonneg
      intro y hy
      obtain ⟨z, -, rfl⟩ := List.mem_map.1 hy
      positivity
    refine ⟨_, rfl, rfl, ⟨?_, (statMax_spec l x).1, (statMax_spec l x).2, (statMin_spec l x).1,
      (statMin_spec l x).2, Real.sqrt_nonneg _, ?_, div_nonneg (Real.sqrt_nonneg _) (Real.sqrt_nonneg _),
      ?_⟩⟩
    · exact div_mul_cancel₀ _ hn.ne'
    · change stdR (x :: l) ^ 2 * _ = _
      rw [stdR, Real.sq_sqrt hv]
      conv_lhs => rw [meanR]
      rw [List.length_map]
      exact div_mul_cancel₀ _ hn.ne'
    · change (stdR (x :: l) / _) ^ 2 * _ = _
      rw [div_pow, Real.sq_sqrt hn.le]
      exact div_mul_cancel₀ _ hn.ne'

/-- The sums of the `i`-th tick. -/
theorem totals_tick (files : List (List (List ℝ))) (h : ∀ f ∈ files, f.length = 13) (p : Nat)
    (name : String) (hp : p < 13) (hn : statsCols[p]? = some name) (hn0 : 0 < p) :
    IceTotals name files (files.map fun f => (f.getD p []).sum) := by
  unfold IceTotals
  rw [List.forall₂_map_right_iff, List.forall₂_same]
  intro f hf
  have hl := h f hf
  refine ⟨p - 1, f.getD p [], ?_, ?_, rfl⟩
  · have hc : statsCols = "time" :: (RunCfg.default 1).coldtrap_names := rfl
    rw [hc] at hn
    obtain ⟨q, rfl⟩ : ∃ q, p = q + 1 := ⟨p - 1, by omega⟩
    simpa using hn
  · rw [Nat.sub_add_cancel hn0, List.getD_eq_getElem?_getD, List.getElem?_eq_getElem (by omega)]
    rfl

/-- Totals of column `p`. -/
noncomputable def colTotals (files : List (List (List ℝ))) (p : Nat) : List ℝ :=
  files.map fun f => (f.getD p []).sum

theorem statTable_eq (files : List (List (List ℝ))) (hne : files ≠ []) :
    ∃ r : Nat → StatRow, (∀ (i p : Nat) (name : String), statPos[i]? = some p → statsCols[i + 1]? = some name →
        (r i).label = name ∧
          StatsOf (colTotals files p) (r i).mean (r i).max (r i).min (r i).sd (r i).se) ∧
      statTable (files.map fun f => statPos.map fun p => (f.getD p []).sum) =
        .ok ((List.range 12).map r) := by
  have hD : ∀ p, colTotals files p ≠ [] := fun p => by simpa [colTotals] using hne
  have key : ∀ i : Nat, ∃ r : StatRow, ∀ (p : Nat) (name : String), statPos[i]? = some p →
      statsCols[i + 1]? = some name → statRow name (colTotals files p) = .ok r ∧ r.label = name ∧
          StatsOf (colTotals files p) r.mean r.max r.min r.sd r.se := by
    intro i
    rcases hp : statPos[i]? with _ | p
    · exact ⟨⟨"", 0, 0, 0, 0, 0⟩, fun p name h => by cases h⟩
    · rcases hn : statsCols[i + 1]? with _ | name
      · exact ⟨⟨"", 0, 0, 0, 0, 0⟩, fun p name _ h => by cases h⟩
      · obtain ⟨r, h⟩ := statRow_ok name (colTotals files p) (hD p)
        refine ⟨r, fun p' name' h1 h2 => ?_⟩
        injection h1 with h1; injection h2 with h2
        subst h1 h2
        exact h
  choose r hr using key
  refine ⟨r, fun i p name h1 h2 => (hr i p name h1 h2).2, ?_⟩
  have e : ∀ (i p : Nat) (name : String), statPos[i]? = some p → statsCols[i + 1]? = some name →
      (netCol (files.map fun f => statPos.map fun p => (f.getD p []).sum) i >>= fun col =>
        statRow name col) = .ok (r i) := by
    intro i p name h1 h2
    rw [netCol_eq files i p h1]
    exact (hr i p name h1 h2).1
  unfold statTable
  have hz : (statsCols.drop 1).zipIdx = [("Haworth", 0), ("Shoemaker", 1), ("Faustini", 2), ("Shackleton", 3),
    ("Slater", 4), ("Amundsen", 5), ("Cabeus", 6), ("Sverdrup", 7), ("de Gerlache", 8),
    ("Idel'son L", 9), ("Wiechert J", 10), ("Cabeus B", 11)] := rfl
  rw [hz]
  have g0 := e 0 _ _ rfl rfl
  have g1 := e 1 _ _ rfl rfl
  have g2 := e 2 _ _ rfl rfl
  have g3 := e 3 _ _ rfl rfl
  have g4 := e 4 _ _ rfl rfl
  have g5 := e 5 _ _ rfl rfl
  have g6 := e 6 _ _ rfl rfl
  have g7 := e 7 _ _ rfl rfl
  have g8 := e 8 _ _ rfl rfl
  have g9 := e 9 _ _ rfl rfl
  have g10 := e 10 _ _ rfl rfl
  have g11 := e 11 _ _ rfl rfl
  simp only [List.mapM_cons, List.mapM_nil, g0, g1, g2, g3, g4, g5, g6, g7, g8, g9, g10, g11]
  rfl

theorem netCols_eq (files : List (List (List ℝ))) :
    netCols (files.map fun f => statPos.map fun p => (f.getD p []).sum) =
      .ok (statPos.map (colTotals files)) := by
  unfold netCols
  have e : ∀ (i p : Nat), statPos[i]? = some p →
      netCol (files.map fun f => statPos.map fun p => (f.getD p []).sum) i = .ok (colTotals files p) :=
    fun i p h => netCol_eq files i p h
  have hz : List.range 12 = [0, 1, 2, 3, 4, 5, 6, 7, 8, 9, 10, 11] := rfl
  rw [hz]
  simp only [List.mapM_cons, List.mapM_nil, e 0 _ rfl, e 1 _ rfl, e 2 _ rfl, e 3 _ rfl, e 4 _ rfl,
    e 5 _ rfl, e 6 _ rfl, e 7 _ rfl, e 8 _ rfl, e 9 _ rfl, e 10 _ rfl, e 11 _ rfl]
  rfl

/-- The figures, mark by mark. -/
theorem statsScript_eq (files : List (List (List ℝ))) (hne : files ≠ [])
    (h : ∀ f ∈ files, f.length = 13) :
    ∃ (r : Nat → StatRow) (fig : StatFigs), statsScript files = .ok fig ∧
      (∀ (i p : Nat) (name : String), statPos[i]? = some p → statsCols[i + 1]? = some name →
        (r i).label = name ∧
          StatsOf (colTotals files p) (r i).mean (r i).max (r i).min (r i).sd (r i).se) ∧
      fig.table = (List.range 12).map r ∧ fig.boxLim = (4.5, 12.5) ∧
      fig.boxes = ((statPos.map (colTotals files)).zip (statsColsNew.drop 1)).zipIdx.map (fun p =>
        { x := (p.2 : ℝ) + 1, tick := p.1.2, data := p.1.1, mean := none, sd := none }) ∧
      fig.bars = (((List.range 12).map r).zip (statsColsNew.drop 1)).zipIdx.map (fun p =>
        { x := p.2, tick := p.1.2, data := [], mean := some p.1.1.mean, sd := some p.1.1.sd }) ∧
      fig.violins = (((statPos.map (colTotals files)).zip ((List.range 12).map r)).zip
        (statsColsNew.drop 1)).zipIdx.map (fun p =>
        { x := (p.2 : ℝ) + 1, tick := p.1.2, data := p.1.1.1, mean := some p.1.1.2.mean, sd := none }) := by
  obtain ⟨r, hr, ht⟩ := statTable_eq files hne
  unfold statsScript
  rw [netIce_eq files h]
  simp only [bind, Except.bind]
  rw [ht, netCols_eq]
  exact ⟨r, _, rfl, hr, rfl, rfl, rfl, rfl, rfl⟩

theorem marks_pos (i p : Nat) (tick : String) (h1 : statPos[i]? = some p)
    (h2 : (statsColsNew.drop 1)[i]? = some tick) : 0 < p ∧ p < 13 ∧ statsCols[p]? = some tick := by
  have : ∀ i < 12, ∃ p ∈ statPos[i]?, ∃ t ∈ (statsColsNew.drop 1)[i]?, 0 < p ∧ p < 13 ∧
      statsCols[p]? = some t := by decide +kernel
  have hi : i < 12 := by
    have := (List.getElem?_eq_some_iff.1 h1).1
    simpa [statPos] using this
  obtain ⟨p', hp', t, ht, h⟩ := this i hi
  rw [h1] at hp'; rw [h2] at ht
  injection hp' with hp'; injection ht with ht
  subst hp' ht
  exact h

/-- **C124** for any runs with a column of time and one for each default cold trap, every figure names
each mark after the crater whose ice it shows: the data of boxes and violins are the sums of this
crater's column in all runs, and bars and points show their mean and standard deviation. -/
theorem C124_figures (files : List (List (List ℝ))) (hne : files ≠ [])
    (h : ∀ f ∈ files, f.length = 13) :
    ∃ fig, statsScript files = .ok fig ∧
      (∀ l ∈ [fig.boxes, fig.bars, fig.violins], l.map (·.tick) = ["Cabeus B", "Idel'son L", "Amundsen",
        "Wiechert J", "Cabeus", "Faustini", "Haworth", "Shoemaker", "Slater", "Sverdrup", "de Gerlache",
        "Shackleton"]) ∧
      (∀ m ∈ fig.boxes, IceTotals m.tick files m.data) ∧
      (∀ m ∈ fig.bars, ∃ data mean max min sd se, IceTotals m.tick files data ∧
        StatsOf data mean max min sd se ∧ m.mean = some mean ∧ m.sd = some sd) ∧
      (∀ m ∈ fig.violins, IceTotals m.tick files m.data ∧ ∃ mean max min sd se,
        StatsOf m.data mean max min sd se ∧ m.mean = some mean) := by
  obtain ⟨r, fig, e, hr, ht, hlim, hb, hbar, hv⟩ := statsScript_eq files hne h
  have tot : ∀ (i p : Nat) (tick : String), statPos[i]? = some p →
      (statsColsNew.drop 1)[i]? = some tick → IceTotals tick files (colTotals files p) := by
    intro i p tick h1 h2
    obtain ⟨a, b, c⟩ := marks_pos i p tick h1 h2
    exact totals_tick files h p tick b c a
  refine ⟨fig, e, ?_, ?_, ?_, ?_⟩
  · intro l hl
    simp only [List.mem_cons, List.not_mem_nil, or_false] at hl
    rcases hl with rfl | rfl | rfl
    · rw [hb]; rfl
    · rw [hbar]; rfl
    · rw [hv]; rfl
  · intro m hm
    rw [hb] at hm
    obtain ⟨⟨⟨d, t⟩, i⟩, hi, rfl⟩ := List.mem_map.1 hm
    rw [List.mk_mem_zipIdx_iff_getElem?, List.getElem?_zip_eq_some, List.getElem?_map,
      Option.map_eq_some_iff] at hi
    obtain ⟨⟨p, hp, rfl⟩, h2⟩ := hi
    exact tot i p t hp h2
  · intro m hm
    rw [hbar] at hm
    obtain ⟨⟨⟨q, t⟩, i⟩, hi, rfl⟩ := List.mem_map.1 hm
    rw [List.mk_mem_zipIdx_iff_getElem?, List.getElem?_zip_eq_some, List.getElem?_map,
      Option.map_eq_some_iff] at hi
    obtain ⟨⟨k, hk, rfl⟩, h2⟩ := hi
    obtain ⟨hk12, hki⟩ := List.getElem?_eq_some_iff.1 hk
    rw [List.getElem_range] at hki
    subst hki
    rw [List.length_range] at hk12
    obtain ⟨p, hp⟩ : ∃ p, statPos[i]? = some p := ⟨_, List.getElem?_eq_getElem (by simpa [statPos] using hk12)⟩
    obtain ⟨n, hn⟩ : ∃ n, statsCols[i + 1]? = some n :=
      ⟨_, List.getElem?_eq_getElem (by simp [statsCols]; omega)⟩
    exact ⟨_, _, _, _, _, _, tot i p t hp h2, (hr i p n hp hn).2, rfl, rfl⟩
  · intro m hm
    rw [hv] at hm
    obtain ⟨⟨⟨⟨d, q⟩, t⟩, i⟩, hi, rfl⟩ := List.mem_map.1 hm
    rw [List.mk_mem_zipIdx_iff_getElem?, List.getElem?_zip_eq_some, List.getElem?_zip_eq_some,
      List.getElem?_map, Option.map_eq_some_iff, List.getElem?_map, Option.map_eq_some_iff] at hi
    obtain ⟨⟨⟨p, hp, rfl⟩, k, hk, rfl⟩, h2⟩ := hi
    obtain ⟨hk12, hki⟩ := List.getElem?_eq_some_iff.1 hk
    rw [List.getElem_range] at hki
    subst hki
    rw [List.length_range] at hk12
    obtain ⟨n, hn⟩ : ∃ n, statsCols[i + 1]? = some n :=
      ⟨_, List.getElem?_eq_getElem (by simp [statsCols]; omega)⟩
    exact ⟨tot i p t hp h2, _, _, _, _, _, (hr i p n hp hn).2, rfl⟩

/-- **C124** the table of statistics has one row for each cold trap, in the order of the configuration,
but the statistics of row `i` are those of the crater that is `i`-th by latitude, never of the crater
that the row is named after. -/
theorem C124_table (files : List (List (List ℝ))) (hne : files ≠ [])
    (h : ∀ f ∈ files, f.length = 13) :
    ∃ fig, statsScript files = .ok fig ∧ fig.table.map (·.label) = (RunCfg.default 1).coldtrap_names ∧
      List.Forall₂ (fun row crater => row.label ≠ crater ∧ ∃ data, IceTotals crater files data ∧
        StatsOf data row.mean row.max row.min row.sd row.se) fig.table
        ["Cabeus B", "Idel'son L", "Amundsen", "Wiechert J", "Cabeus", "Faustini", "Haworth",
          "Shoemaker", "Slater", "Sverdrup", "de Gerlache", "Shackleton"] := by
  obtain ⟨r, fig, e, hr, ht, -⟩ := statsScript_eq files hne h
  have lab : ∀ i < 12, some (r i).label = statsCols[i + 1]? := by
    intro i hi
    obtain ⟨p, hp⟩ : ∃ p, statPos[i]? = some p := ⟨_, List.getElem?_eq_getElem (by simpa [statPos] using hi)⟩
    obtain ⟨n, hn⟩ : ∃ n, statsCols[i + 1]? = some n :=
      ⟨_, List.getElem?_eq_getElem (by simp [statsCols]; omega)⟩
    rw [hn, (hr i p n hp hn).1]
  refine ⟨fig, e, ?_, ?_⟩
  · rw [ht]
    apply List.ext_getElem?
    intro i
    rw [List.map_map, List.getElem?_map]
    have hc : (RunCfg.default 1).coldtrap_names[i]? = statsCols[i + 1]? := rfl
    rw [hc]
    by_cases hi : i < 12
    · rw [← lab i hi, List.getElem?_range hi]; rfl
    · rw [List.getElem?_eq_none (by simpa using hi), List.getElem?_eq_none (by simpa [statsCols] using hi)]
      rfl
  · rw [ht, List.forall₂_map_left_iff]
    have key : ∀ (i : Nat) (t : String), i < 12 → (statsColsNew.drop 1)[i]? = some t →
        (r i).label ≠ t ∧ ∃ data, IceTotals t files data ∧
          StatsOf data (r i).mean (r i).max (r i).min (r i).sd (r i).se := by
      intro i t hi h2
      obtain ⟨p, hp⟩ : ∃ p, statPos[i]? = some p :=
        ⟨_, List.getElem?_eq_getElem (by simpa [statPos] using hi)⟩
      obtain ⟨n, hn⟩ : ∃ n, statsCols[i + 1]? = some n :=
        ⟨_, List.getElem?_eq_getElem (by simp [statsCols]; omega)⟩
      obtain ⟨a, b, c⟩ := marks_pos i p t hp h2
      refine ⟨?_, _, totals_tick files h p t b c a, (hr i p n hp hn).2⟩
      have hd : ∀ i < 12, statsCols[i + 1]? ≠ (statsColsNew.drop 1)[i]? := by decide +kernel
      intro hl
      exact hd i hi (by rw [← lab i hi, h2, hl])
    have hz : List.range 12 = [0, 1, 2, 3, 4, 5, 6, 7, 8, 9, 10, 11] := rfl
    rw [hz]
    exact .cons (key 0 _ (by omega) rfl) <| .cons (key 1 _ (by omega) rfl) <|
      .cons (key 2 _ (by omega) rfl) <| .cons (key 3 _ (by omega) rfl) <|
      .cons (key 4 _ (by omega) rfl) <| .cons (key 5 _ (by omega) rfl) <|
      .cons (key 6 _ (by omega) rfl) <| .cons (key 7 _ (by omega) rfl) <|
      .cons (key 8 _ (by omega) rfl) <| .cons (key 9 _ (by omega) rfl) <|
      .cons (key 10 _ (by omega) rfl) <| .cons (key 11 _ (by omega) rfl) .nil

/-- One run in which the `k`-th column sums to `k`. -/
noncomputable def countingRun : List (List ℝ) :=
  [[0], [1], [2], [3], [4], [5], [6], [7], [8], [9], [10], [11], [12]]

/-- **C124** refuted: that a row of the table holds the statistics of the crater it is named after. For
one run all twelve rows have another mean. -/
theorem C124_table_refuted :
    ∃ fig, statsScript [countingRun] = .ok fig ∧ ∀ row ∈ fig.table, ∀ data mean max min sd se,
      IceTotals row.label [countingRun] data → StatsOf data mean max min sd se → row.mean ≠ mean := by
  have h13 : ∀ f ∈ [countingRun], f.length = 13 := by simp [countingRun]
  obtain ⟨r, fig, e, hr, ht, -⟩ := statsScript_eq [countingRun] (by simp) h13
  refine ⟨fig, e, ?_⟩
  intro row hrow data mean max min sd se hd hs
  rw [ht] at hrow
  obtain ⟨i, hi, rfl⟩ := List.mem_map.1 hrow
  have hi12 := List.mem_range.1 hi
  obtain ⟨p, hp⟩ : ∃ p, statPos[i]? = some p :=
    ⟨_, List.getElem?_eq_getElem (by simpa [statPos] using hi12)⟩
  obtain ⟨n, hn⟩ : ∃ n, statsCols[i + 1]? = some n :=
    ⟨_, List.getElem?_eq_getElem (by simp [statsCols]; omega)⟩
  obtain ⟨hl, hst⟩ := hr i p n hp hn
  have cval : ∀ k < 13, (countingRun.getD k []).sum = (k : ℝ) := by
    intro k hk
    interval_cases k <;> simp [countingRun]
  have hp13 : p < 13 := by
    have : ∀ p ∈ statPos, p < 13 := by decide
    exact this p (List.mem_of_getElem? hp)
  have m1 := hst.mean_eq
  simp only [colTotals, List.map_cons, List.map_nil, List.length_cons, List.length_nil, List.sum_cons,
    List.sum_nil, add_zero, zero_add, Nat.cast_one, mul_one, cval p hp13] at m1
  rw [hl] at hd
  cases hd with
  | cons h1 h2 =>
    cases h2
    obtain ⟨k, col, k1, k2, rfl⟩ := h1
    have hk12 : k < 12 := by
      have := (List.getElem?_eq_some_iff.1 k1).1
      simpa [RunCfg.default] using this
    have hki : k = i := by
      have hnd : (RunCfg.default 1).coldtrap_names.Nodup := by decide +kernel
      have h3 : (RunCfg.default 1).coldtrap_names[i]? = some n := hn
      obtain ⟨a1, a2⟩ := List.getElem?_eq_some_iff.1 k1
      obtain ⟨b1, b2⟩ := List.getElem?_eq_some_iff.1 h3
      exact (List.Nodup.getElem_inj_iff hnd).1 (a2.trans b2.symm)
    subst hki
    have hcol : col.sum = ((k + 1 : ℕ) : ℝ) := by
      rw [← cval (k + 1) (by omega), List.getD_eq_getElem?_getD, k2]; rfl
    have m2 := hs.mean_eq
    simp only [List.length_cons, List.length_nil, List.sum_cons, List.sum_nil, add_zero, zero_add,
      Nat.cast_one, mul_one, hcol] at m2
    rw [m1, m2]
    intro hh
    have hpk : p = k + 1 := by exact_mod_cast hh
    have hd' : ∀ k < 12, statPos[k]? ≠ some (k + 1) := by decide +kernel
    exact hd' k hk12 (by rw [hp, hpk])

/-- **C124** the ticks are sorted by the latitudes of the shipped crater list, from the lowest to the
highest southern latitude. -/
theorem C124_latitude (files : List (List (List ℝ))) (fig : StatFigs) (h : statsScript files = .ok fig)
    (hne : files ≠ []) (h13 : ∀ f ∈ files, f.length = 13) (i j : Nat) (m m' : StatMark) (q q' : FileRow)
    (hi : fig.boxes[i]? = some m) (hj : fig.boxes[j]? = some m') (hij : i < j) (hq : q ∈ craterFile)
    (hq' : q' ∈ craterFile) (hm : q.cname = m.tick) (hm' : q'.cname = m'.tick) : q'.lat ≤ q.lat := by
  obtain ⟨fig', e, ht, -⟩ := C124_figures files hne h13
  rw [e] at h
  injection h with h
  subst h
  have hb := ht fig'.boxes (by simp)
  have key : List.Pairwise (fun a b => ∀ q ∈ craterFile, ∀ q' ∈ craterFile, q.cname = a → q'.cname = b →
      q'.lat ≤ q.lat) ["Cabeus B", "Idel'son L", "Amundsen", "Wiechert J", "Cabeus", "Faustini", "Haworth",
        "Shoemaker", "Slater", "Sverdrup", "de Gerlache", "Shackleton"] := by decide +kernel
  rw [← hb, List.pairwise_map] at key
  obtain ⟨a1, a2⟩ := List.getElem?_eq_some_iff.1 hi
  obtain ⟨b1, b2⟩ := List.getElem?_eq_some_iff.1 hj
  have := List.pairwise_iff_getElem.1 key i j a1 b1 hij
  rw [a2, b2] at this
  exact this q hq q' hq' hm hm'

/-- **C124** the limits of the box plot leave out the first four craters and no other. -/
theorem C124_box (files : List (List (List ℝ))) (hne : files ≠ []) (h : ∀ f ∈ files, f.length = 13) :
    ∃ fig, statsScript files = .ok fig ∧ ∀ m ∈ fig.boxes, (fig.boxLim.1 ≤ m.x ∧ m.x ≤ fig.boxLim.2) ↔
      m.tick ∉ ["Cabeus B", "Idel'son L", "Amundsen", "Wiechert J"] := by
  obtain ⟨r, fig, e, hr, ht, hlim, hb, -⟩ := statsScript_eq files hne h
  refine ⟨fig, e, ?_⟩
  intro m hm
  rw [hb] at hm
  obtain ⟨⟨⟨d, t⟩, i⟩, hi, rfl⟩ := List.mem_map.1 hm
  rw [List.mk_mem_zipIdx_iff_getElem?, List.getElem?_zip_eq_some] at hi
  obtain ⟨-, h2⟩ := hi
  have hk : i < 12 := by
    have := (List.getElem?_eq_some_iff.1 h2).1
    simpa [statsColsNew] using this
  have key : ∀ i < 12, ∀ t ∈ (statsColsNew.drop 1)[i]?, (4 ≤ i ↔
      t ∉ ["Cabeus B", "Idel'son L", "Amundsen", "Wiechert J"]) := by decide +kernel
  rw [← key i hk t h2, hlim]
  dsimp only
  constructor
  · rintro ⟨a, -⟩
    by_contra hc
    have : (i : ℝ) ≤ 3 := by exact_mod_cast (by omega : i ≤ 3)
    linarith
  · intro hc
    have h1 : (4 : ℝ) ≤ i := by exact_mod_cast hc
    have h2 : (i : ℝ) ≤ 11 := by exact_mod_cast (by omega : i ≤ 11)
    constructor <;> linarith

/-- **C124** without runs the largest value of nothing raises `ValueError`. -/
theorem C124_empty : statsScript [] = .error .valueError := rfl

/-- **C124** statistics are consistent: the mean lies between the extremes, the deviation is at most
their difference and the error at most the deviation. -/
theorem C124_bounds (data : List ℝ) (mean max min sd se : ℝ) (h : StatsOf data mean max min sd se) :
    min ≤ mean ∧ mean ≤ max ∧ sd ≤ max - min ∧ se ≤ sd := by
  have hl : 0 < data.length := List.length_pos_of_mem h.max_mem
  have hn : (1 : ℝ) ≤ data.length := by exact_mod_cast hl
  have h1 : data.sum ≤ data.length * max := by
    simpa using List.sum_le_card_nsmul data max h.max_le
  have h2 : data.length * min ≤ data.sum := by
    simpa using List.card_nsmul_le_sum data min h.min_le
  rw [← h.mean_eq] at h1 h2
  have a1 : min ≤ mean := by
    by_contra hc; push Not at hc
    nlinarith
  have a2 : mean ≤ max := by
    by_contra hc; push Not at hc
    nlinarith
  have h3 : (data.map fun x => (x - mean) ^ 2).sum ≤ data.length * (max - min) ^ 2 := by
    have := List.sum_le_card_nsmul (data.map fun x => (x - mean) ^ 2) ((max - min) ^ 2) (by
      intro y hy
      obtain ⟨x, hx, rfl⟩ := List.mem_map.1 hy
      have b1 := h.max_le x hx
      have b2 := h.min_le x hx
      exact sq_le_sq' (by linarith) (by linarith))
    simpa using this
  rw [← h.sd_eq] at h3
  have h4 : sd ^ 2 ≤ (max - min) ^ 2 := by
    by_contra hc; push Not at hc
    nlinarith
  have h5 : se ^ 2 ≤ sd ^ 2 := by
    rw [← h.se_eq]
    nlinarith [sq_nonneg se]
  exact ⟨a1, a2, abs_le_of_sq_le_sq' h4 (by linarith) |>.2, abs_le_of_sq_le_sq' h5 h.sd_nonneg |>.2⟩

example : ∃ files : List (List (List ℝ)), files ≠ [] ∧ (∀ f ∈ files, f.length = 13) ∧
    ∃ fig, statsScript files = .ok fig ∧ fig.table.length = 12 := by
  refine ⟨[countingRun, countingRun], by simp, by simp [countingRun], ?_⟩
  obtain ⟨r, fig, e, -, ht, -⟩ := statsScript_eq [countingRun, countingRun] (by simp)
    (by simp [countingRun])
  exact ⟨fig, e, by rw [ht]; rfl⟩

example : StatsOf [1, 3] 2 3 1 1 (Real.sqrt (1 / 2)) where
  mean_eq := by norm_num
  max_mem := by simp
  max_le := by intro x hx; simp at hx; rcases hx with rfl | rfl <;> norm_num
  min_mem := by simp
  min_le := by intro x hx; simp at hx; rcases hx with rfl | rfl <;> norm_num
  sd_nonneg := by norm_num
  sd_eq := by norm_num
  se_nonneg := Real.sqrt_nonneg _
  se_eq := by rw [Real.sq_sqrt (by norm_num)]; norm_num

end MoonPIES
