import Verif.Model.OldScripts
import Verif.Model.Main
import Verif.Props.Files
import Verif.Props.Strat

/-!
# C131, C132: two older scripts that read the files of many runs
-/

namespace MoonPIES

open Spec

/-! ## C131: `find_recent_layer.py` -/

/-- A stratigraphy table in the layout that the script expects: its six names, in its order. -/
def Spec.oldLayout (rows : List (StratRow ℝ)) : CsvTable :=
  [("label", .texts (rows.map fun r => r.label)), ("time", .nums (rows.map fun r => some r.time)),
   ("ice", .nums (rows.map fun r => some r.ice)), ("ejecta", .nums (rows.map fun r => some r.ejecta)),
   ("depth", .nums (rows.map fun r => some r.depth)), ("icepct", .nums (rows.map fun r => r.icepct))]

/-- Row `i` is the youngest layer with ice (tables run from the oldest layer to the youngest). -/
def Spec.YoungestIce (rows : List (StratRow ℝ)) (i : Nat) (r : StratRow ℝ) : Prop :=
  rows[i]? = some r ∧ 0 < r.ice ∧ ∀ (j : Nat) r', i < j → rows[j]? = some r' → r'.ice ≤ 0

theorem recentDepth_old (rows : List (StratRow ℝ)) : recentDepth (oldLayout rows) =
    match (rows.filter fun r => decide (0 < r.ice)).getLast? with
    | some r => .ok (some r.depth)
    | none => .error .indexError := by
  have hm : maskSel (rows.map fun r => decide (0 < r.ice)) (rows.map fun r => some r.depth) =
      (rows.filter fun r => decide (0 < r.ice)).map fun r => some r.depth := by
    unfold maskSel
    induction rows with
    | nil => rfl
    | cons a l ih =>
      rw [List.map_cons, List.map_cons, List.zip_cons_cons, List.filterMap_cons, List.filter_cons]
      by_cases h : 0 < a.ice
      · simp only [h, decide_true, if_true, List.map_cons]
        rw [ih]
      · simp only [h, decide_false, Bool.false_eq_true, if_false]
        exact ih
  have hg : gtZero (.nums (rows.map fun r => some r.ice)) =
      .ok (rows.map fun r => decide (0 < r.ice)) := by
    change Except.ok _ = _
    rw [List.map_map]; rfl
  have h1 : recentCol (recentRead (oldLayout rows)) "ice" =
      .ok (.nums (rows.map fun r => some r.ice)) := rfl
  have h2 : recentCol (recentRead (oldLayout rows)) "depth" =
      .ok (.nums (rows.map fun r => some r.depth)) := rfl
  unfold recentDepth
  simp only [h1, h2, hg, hm, bind, Except.bind]
  rw [List.getLast?_map]
  cases (rows.filter fun r => decide (0 < r.ice)).getLast? <;> rfl

theorem youngest_filter (rows : List (StratRow ℝ)) :
    (∀ r, (rows.filter fun r => decide (0 < r.ice)).getLast? = some r → ∃ i, YoungestIce rows i r) ∧
    ((rows.filter fun r => decide (0 < r.ice)).getLast? = none ↔ ∀ r ∈ rows, r.ice ≤ 0) := by
  constructor
  · induction rows with
    | nil => intro r h; simp at h
    | cons a l ih =>
      intro r h
      by_cases hl : (l.filter fun r => decide (0 < r.ice)) = []
      · by_cases ha : 0 < a.ice
        · rw [List.filter_cons_of_pos (by simpa using ha), hl] at h
          simp only [List.getLast?_singleton, Option.some.injEq] at h
          subst h
          refine ⟨0, rfl, ha, ?_⟩
          intro j r' hj hr
          cases j with
          | zero => omega
          | succ j =>
            rw [List.getElem?_cons_succ] at hr
            have := List.filter_eq_nil_iff.1 hl r' (List.mem_of_getElem? hr)
            simpa using this
        · rw [List.filter_cons_of_neg (by simpa using ha), hl] at h
          simp at h
      · have : (l.filter fun r => decide (0 < r.ice)).getLast? = some r := by
          by_cases ha : 0 < a.ice
          · rw [List.filter_cons_of_pos (by simpa using ha)] at h
            rw [← h, List.getLast?_cons]
            cases he : (l.filter fun r => decide (0 < r.ice)).getLast? with
            | none => exact absurd (List.getLast?_eq_none_iff.1 he) hl
            | some x => rfl
          · rwa [List.filter_cons_of_neg (by simpa using ha)] at h
        obtain ⟨i, h1, h2, h3⟩ := ih r this
        refine ⟨i + 1, by simpa using h1, h2, ?_⟩
        intro j r' hj hr
        cases j with
        | zero => omega
        | succ j => exact h3 j r' (by omega) (by simpa using hr)
  · rw [List.getLast?_eq_none_iff, List.filter_eq_nil_iff]
    simp

/-- **C131** from a table in the layout it expects the script takes the depth of the youngest layer
with ice; it raises `IndexError` exactly if no layer has ice. -/
theorem C131_youngest (rows : List (StratRow ℝ)) :
    (∀ x, recentDepth (oldLayout rows) = .ok x ↔ ∃ i r, YoungestIce rows i r ∧ x = some r.depth) ∧
    (∀ e, recentDepth (oldLayout rows) = .error e ↔ e = .indexError ∧ ∀ r ∈ rows, r.ice ≤ 0) := by
  obtain ⟨y1, y2⟩ := youngest_filter rows
  rw [recentDepth_old]
  have uniq : ∀ i r j s, YoungestIce rows i r → YoungestIce rows j s → r = s := by
    intro i r j s hi hj
    rcases Nat.lt_trichotomy i j with h | h | h
    · exact absurd hj.2.1 (not_lt.2 (hi.2.2 j s h hj.1))
    · subst h
      have := hi.1.symm.trans hj.1
      exact Option.some.inj this
    · exact absurd hi.2.1 (not_lt.2 (hj.2.2 i r h hi.1))
  cases h : (rows.filter fun r => decide (0 < r.ice)).getLast? with
  | none =>
    have hz := y2.1 h
    constructor
    · intro x
      refine ⟨fun h => (by cases h), ?_⟩
      rintro ⟨i, r, hy, -⟩
      exact absurd hy.2.1 (not_lt.2 (hz r (List.mem_of_getElem? hy.1)))
    · intro e
      simp only [Except.error.injEq]
      exact ⟨fun h => ⟨h.symm, hz⟩, fun h => h.1.symm⟩
  | some r =>
    obtain ⟨i, hi⟩ := y1 r h
    constructor
    · intro x
      simp only [Except.ok.injEq]
      constructor
      · intro e; exact ⟨i, r, hi, e.symm⟩
      · rintro ⟨j, s, hj, rfl⟩
        rw [uniq i r j s hi hj]
    · intro e
      refine ⟨fun h => (by cases h), ?_⟩
      rintro ⟨-, hz⟩
      exact absurd hi.2.1 (not_lt.2 (hz r (List.mem_of_getElem? hi.1)))

/-- **C131** for a table made by `make_strat_col` the number is the depth of the bottom of the
youngest layer with ice: its own thickness and that of everything above it. -/
theorem C131_bottom (thickMin tol age : ℝ) (saa : Bool) (steps : List (Step ℝ))
    (rows : List (StratRow ℝ)) (h : makeStratCol thickMin tol saa age steps = .ok rows)
    (x : Option ℝ) (hx : recentDepth (oldLayout rows) = .ok x) :
    ∃ i r, YoungestIce rows i r ∧
      x = some (r.ice + r.ejecta + ((rows.drop (i + 1)).map fun r => r.ejecta + r.ice).sum) := by
  obtain ⟨i, r, hy, rfl⟩ := ((C131_youngest rows).1 x).1 hx
  refine ⟨i, r, hy, ?_⟩
  rw [(C22_depth_cumulative thickMin tol age saa steps rows h).1 i r hy.1]
  have hi : i < rows.length := (List.getElem?_eq_some_iff.1 hy.1).1
  have hr : rows[i] = r := (List.getElem?_eq_some_iff.1 hy.1).2
  rw [List.drop_eq_getElem_cons hi, hr, List.map_cons, List.sum_cons]
  have : (fun r : StratRow ℝ => r.ice + r.ejecta) = fun r => r.ejecta + r.ice := by
    funext r; ring
  rw [this]

/-- **C131** (negative) the number is not the depth at which the ice begins, as the label of the axis
and the title say: it is more than all that covers the layer, always. -/
theorem C131_top_refuted (thickMin tol age : ℝ) (saa : Bool) (steps : List (Step ℝ))
    (hpos : ∀ s ∈ steps, 0 ≤ s.ice ∧ 0 ≤ s.ejecta)
    (rows : List (StratRow ℝ)) (h : makeStratCol thickMin tol saa age steps = .ok rows)
    (x : ℝ) (hx : recentDepth (oldLayout rows) = .ok (some x)) :
    ∃ i r, YoungestIce rows i r ∧ ((rows.drop (i + 1)).map fun r => r.ejecta + r.ice).sum < x := by
  obtain ⟨i, r, hy, e⟩ := C131_bottom thickMin tol age saa steps rows h _ hx
  refine ⟨i, r, hy, ?_⟩
  have hn := strat_nonneg hpos h r (List.mem_of_getElem? hy.1)
  have := Option.some.inj e
  have h0 := hy.2.1
  linarith [hn.2]

/-- **C131** (negative) with the tables that runs save now the columns are in another order, the labels
take the place of the ice, and the script raises `TypeError` at the first table that has a layer. -/
theorem C131_layout_refuted (rows : List (StratRow ℝ)) (h : rows ≠ []) :
    recentDepth (stratCsv rows) = .error .typeError := by
  obtain ⟨r, l, rfl⟩ := List.exists_cons_of_ne_nil h
  rfl

theorem recentFile_ne (t : Str) : "Cabeus B".toList ++ "_strat.csv".toList ≠ stratName t := by
  unfold stratName
  intro h
  have := congrArg List.head? h
  simp at this

/-- **C131** (negative) a run saves its tables under other names, so that the script, given the
directory of a run, raises before it has read anything. -/
theorem C131_files_refuted (env : Env) (fs : FS CsvTable) (kw : List (String × PyVal)) (c : CfgVals)
    (strats : List (Str × CsvTable)) (dir : Loc) (h : SaveReady env fs kw c strats dir)
    (hfs : fs.file (dir ++ ["Cabeus B_strat.csv".toList]) = none)
    (a b d : CsvTable) (grids : CsvTable × CsvTable) (fs' : FS CsvTable)
    (hs : (formatSaveOutputs env.cwd fs (saveCfgOf c) a b d strats grids).2 = .ok fs')
    (dirs : List Loc) : recentDepths fs' (dir :: dirs) = .error .osError := by
  obtain ⟨fs2, e, -, -, -, -, -, -, hf⟩ := C60_saved env fs kw c strats dir h a b d grids
  rw [hs] at e
  injection e with e
  subst e
  have hn : ∀ x : Str, "Cabeus B_strat.csv".toList ≠ x →
      dir ++ ["Cabeus B_strat.csv".toList] ≠ dir ++ [x] := by
    intro x hx he
    have := List.append_cancel_left he
    exact hx (by simpa using this)
  have hnone : fs'.file (dir ++ ["Cabeus B_strat.csv".toList]) = none := by
    rw [hf _ (hn _ (by decide)) (hn _ (by decide)) (hn _ (by decide)) (fun s _ => hn _ (recentFile_ne s.1))]
    exact hfs
  have ho : openCsv fs' (dir ++ ["Cabeus B".toList ++ "_strat.csv".toList]) = .error .osError := by
    unfold openCsv
    change (match fs'.file (dir ++ ["Cabeus B_strat.csv".toList]) with
      | none => _ | some none => _ | some (some t) => _) = _
    rw [hnone]
  unfold recentDepths recentTraps
  simp only [List.mapM_cons, ho, bind, Except.bind]

/-- **C131** a missing first table stops the script with `FileNotFoundError`, one without content with
`EmptyDataError`, a `ValueError`. -/
theorem C131_opens (fs : FS CsvTable) (dir : Loc) (dirs : List Loc) :
    (fs.file (dir ++ ["Cabeus B_strat.csv".toList]) = none → recentDepths fs (dir :: dirs) = .error .osError) ∧
    (fs.file (dir ++ ["Cabeus B_strat.csv".toList]) = some none →
      recentDepths fs (dir :: dirs) = .error .valueError) := by
  have ho : fs.file (dir ++ ["Cabeus B".toList ++ "_strat.csv".toList]) =
      fs.file (dir ++ ["Cabeus B_strat.csv".toList]) := rfl
  constructor <;> intro h <;> unfold recentDepths recentTraps <;> rw [← ho] at h <;>
    simp only [List.mapM_cons, openCsv, h, bind, Except.bind]

example : ∃ (fs : FS CsvTable) (dir : Loc), fs.file (dir ++ ["Cabeus B_strat.csv".toList]) = some none :=
  ⟨⟨fun _ => true, fun _ => some none⟩, ["runs".toList], rfl⟩

/-! ## C132: `ensemble_plot.py` -/

theorem ensembleLeft_ok (t : List ℝ) (h : t ≠ []) :
    ∃ m, ensembleLeft (t.map some) = .ok m ∧ m ∈ t ∧ ∀ x ∈ t, x ≤ m := by
  obtain ⟨a, l, rfl⟩ := List.exists_cons_of_ne_nil h
  clear h
  rw [List.map_cons]
  unfold ensembleLeft
  simp only []
  induction l generalizing a with
  | nil => exact ⟨a, rfl, by simp, by simp⟩
  | cons b l ih =>
    obtain ⟨m, h1, h2, h3⟩ := ih (max a b)
    refine ⟨m, h1, ?_, ?_⟩
    · rcases List.mem_cons.1 h2 with h | h
      · rcases max_choice a b with e | e <;> rw [h, e] <;> simp
      · exact List.mem_cons_of_mem _ (List.mem_cons_of_mem _ h)
    · intro x hx
      have hm := h3 (max a b) List.mem_cons_self
      rcases List.mem_cons.1 hx with rfl | hx
      · exact le_trans (le_max_left _ _) hm
      · rcases List.mem_cons.1 hx with rfl | hx
        · exact le_trans (le_max_right _ _) hm
        · exact h3 x (List.mem_cons_of_mem _ hx)

theorem ensembleCurve_ok (time : List ℝ) (ice : List (String × List ℝ)) (c : String × List ℝ)
    (h : ice[1]? = some c) : ensembleCurve (iceCsv time ice) = .ok (time.map some, c.2.map some) := by
  match ice, h with
  | a :: b :: l, h =>
    simp only [List.getElem?_cons_succ, List.getElem?_cons_zero, Option.some.injEq] at h
    subst h
    rfl

/-- **C132** given tables of ice columns the script draws for each of them the second cold trap against
time in billions of years; its horizontal axis starts at the largest time of the last table. -/
theorem C132_curves (fs : FS CsvTable) (runs : List (Loc × List ℝ × List (String × List ℝ)))
    (hf : ∀ r ∈ runs, fs.file r.1 = some (some (iceCsv r.2.1 r.2.2)))
    (h2 : ∀ r ∈ runs, 2 ≤ r.2.2.length) (ht : ∀ r ∈ runs, r.2.1 ≠ []) (hne : runs ≠ []) :
    ∃ cs m, ensemblePlot fs (runs.map (·.1)) = .ok (some (cs, m)) ∧
      cs.length = runs.length ∧
      (∀ (i : Nat) r c, runs[i]? = some r → r.2.2[1]? = some c →
        cs[i]? = some (r.2.1.map (fun t => some (t / 10 ^ 9)), c.2.map some)) ∧
      ∀ r, runs.getLast? = some r → m * 10 ^ 9 ∈ r.2.1 ∧ ∀ t ∈ r.2.1, t ≤ m * 10 ^ 9 := by
  let sec : List (String × List ℝ) → List ℝ := fun ice => match ice[1]? with
    | some c => c.2
    | none => []
  have hm : (runs.map (·.1)).mapM (fun l => do ensembleCurve (← openCsv fs l)) =
      Except.ok (runs.map fun r => (r.2.1.map some, (sec r.2.2).map some)) := by
    clear ht hne
    induction runs with
    | nil => rfl
    | cons r l ih =>
      have i1 := ih (fun r hr => hf r (List.mem_cons_of_mem _ hr)) (fun r hr => h2 r (List.mem_cons_of_mem _ hr))
      have ho : openCsv fs r.1 = .ok (iceCsv r.2.1 r.2.2) := by
        unfold openCsv
        rw [hf r List.mem_cons_self]
      have hl := h2 r List.mem_cons_self
      have hc := ensembleCurve_ok r.2.1 r.2.2 _ (List.getElem?_eq_getElem (by omega : 1 < r.2.2.length))
      have hs : sec r.2.2 = (r.2.2[1]).2 := by
        change (match r.2.2[1]? with | some c => c.2 | none => []) = _
        rw [List.getElem?_eq_getElem (by omega : 1 < r.2.2.length)]
      rw [List.map_cons, List.mapM_cons]
      simp only [bind, Except.bind, pure, Except.pure] at i1 ⊢
      rw [ho]
      simp only [hc, i1, List.map_cons, hs]
  obtain ⟨r0, hr0⟩ : ∃ r, runs.getLast? = some r := by
    cases h : runs.getLast? with
    | none => exact absurd (List.getLast?_eq_none_iff.1 h) hne
    | some r => exact ⟨r, rfl⟩
  obtain ⟨m, m1, m2, m3⟩ := ensembleLeft_ok r0.2.1 (ht r0 (List.mem_of_getLast? hr0))
  refine ⟨(runs.map fun r => (r.2.1.map some, (sec r.2.2).map some)).map
      (fun c => (c.1.map (Option.map (· / 1000000000)), c.2)), m / 1000000000, ?_, ?_, ?_, ?_⟩
  · unfold ensemblePlot
    simp only [bind, Except.bind] at hm ⊢
    rw [hm]
    simp only [List.getLast?_map, hr0, Option.map_some, m1]
  · simp
  · intro i r c hr hc
    rw [List.getElem?_map, List.getElem?_map, hr]
    have hs : sec r.2.2 = c.2 := by
      change (match r.2.2[1]? with | some c => c.2 | none => []) = _
      rw [hc]
    simp only [Option.map_some, hs, List.map_map]
    congr 2
    apply List.map_congr_left
    intro t _
    simp only [Function.comp_apply, Option.map_some, Option.some.injEq]
    norm_num
  · intro r hr
    have : r0 = r := Option.some.inj (hr0.symm.trans hr)
    subst this
    have e : m / 1000000000 * 10 ^ 9 = m := by norm_num
    rw [e]
    exact ⟨m2, m3⟩

/-- **C132** a file without a third column, as of runs with one cold trap, raises `ValueError`. -/
theorem C132_columns (fs : FS CsvTable) (l : Loc) (t : CsvTable) (rest : List Loc) (h : openCsv fs l = .ok t)
    (ht : t.length ≤ 2) : ensemblePlot fs (l :: rest) = .error .valueError := by
  have hc : ensembleCurve t = .error .valueError := by
    unfold ensembleCurve useCol
    rw [List.getElem?_eq_none (show t.length ≤ 2 from ht)]
    cases t[0]? <;> rfl
  unfold ensemblePlot
  simp only [List.mapM_cons, h, hc, bind, Except.bind]

/-- **C132** a file without content raises `EmptyDataError`, a `ValueError`, whatever the later ones hold. -/
theorem C132_empty (fs : FS CsvTable) (l : Loc) (rest : List Loc) (h : fs.file l = some none) :
    ensemblePlot fs (l :: rest) = .error .valueError := by
  unfold ensemblePlot
  simp only [List.mapM_cons, openCsv, h, bind, Except.bind]

/-- **C132** without files it quits. -/
theorem C132_quits (fs : FS CsvTable) : ensemblePlot fs [] = .ok none := rfl

/-- **C132** it looks for all files below the directory, at any depth, whose name is `ice_columns_`, some text and
`.csv`. -/
theorem C132_found (fs : FS CsvTable) (root l : Loc) : EnsembleFinds fs root l ↔
    ∃ (dirs : Loc) (s : Str), l = root ++ dirs ++ ["ice_columns_".toList ++ s ++ ".csv".toList] ∧ fs.file l ≠ none := by
  constructor
  · rintro ⟨⟨dirs, h1⟩, ⟨n, h2, h3⟩, h4⟩
    unfold ensembleName at h3
    rw [Bool.and_eq_true, List.isPrefixOf_iff_prefix, List.isSuffixOf_iff_suffix] at h3
    obtain ⟨⟨t, h5⟩, s, h6⟩ := h3
    refine ⟨dirs, s, ?_, h4⟩
    have h7 : n.drop 12 = t := by rw [← h5]; exact List.drop_left' rfl
    rw [h7] at h6
    have hne : l ≠ [] := by rintro rfl; cases h2
    rw [List.getLast?_eq_some_getLast hne, Option.some.injEq] at h2
    rw [h1, List.append_assoc, h6, h5, ← h2, List.dropLast_append_getLast]
  · rintro ⟨dirs, s, rfl, h⟩
    refine ⟨by rw [List.dropLast_concat]; exact ⟨dirs, rfl⟩, ⟨_, List.getLast?_concat, ?_⟩, h⟩
    unfold ensembleName
    rw [Bool.and_eq_true, List.isPrefixOf_iff_prefix, List.isSuffixOf_iff_suffix]
    refine ⟨⟨s ++ ".csv".toList, by rw [List.append_assoc]⟩, s, ?_⟩
    rw [List.append_assoc]
    exact (List.drop_left' (l₁ := "ice_columns_".toList) rfl).symm

/-- **C132** (negative) the files it looks for are not among those that a run saves with the default
names: it finds after the run only what it found before. -/
theorem C132_files_refuted (env : Env) (fs : FS CsvTable) (kw : List (String × PyVal)) (c : CfgVals)
    (strats : List (Str × CsvTable)) (dir : Loc) (h : SaveReady env fs kw c strats dir)
    (a b d : CsvTable) (grids : CsvTable × CsvTable) (fs' : FS CsvTable)
    (hs : (formatSaveOutputs env.cwd fs (saveCfgOf c) a b d strats grids).2 = .ok fs')
    (root l : Loc) (hl : EnsembleFinds fs' root l) : EnsembleFinds fs root l := by
  obtain ⟨fs2, e, -, -, -, -, -, -, hf⟩ := C60_saved env fs kw c strats dir h a b d grids
  rw [hs] at e
  injection e with e
  subst e
  obtain ⟨h1, ⟨n, h2, h3⟩, h4⟩ := hl
  have hn : ∀ x : Str, ensembleName x = false → l ≠ dir ++ [x] := by
    intro x hx he
    rw [he, List.getLast?_append, List.getLast?_singleton] at h2
    simp only [Option.some_or, Option.some.injEq] at h2
    rw [h2, h3] at hx
    cases hx
  refine ⟨h1, ⟨n, h2, h3⟩, ?_⟩
  rwa [hf l (hn _ (by decide)) (hn _ (by decide)) (hn _ (by decide)) (fun s _ => hn _ ?_)] at h4
  unfold stratName ensembleName
  rfl

/-! ## Examples -/

/-- A world with directories only. -/
def fsCsv : FS CsvTable where
  isDir := fs0.isDir
  file := fun _ => none

theorem readyCsv : SaveReady (worldOf env0 fsCsv) fsCsv [("write", .bool true)] cfg0
    [("Faustini".toList, []), ("Haworth".toList, [])] dir0 where
  cfg := ready0.cfg
  world := rfl
  cwd := ready0.cwd
  write := ready0.write
  npy := ready0.npy
  notGiven := ready0.notGiven
  notThere := ready0.notThere
  noTilde := ready0.noTilde
  dirLoc := ready0.dirLoc
  noFile := fun _ _ => rfl
  noDirDefault := ready0.noDirDefault
  noDirStrat := by decide +kernel
  names := by decide +kernel
  noSlash := by decide +kernel

/-- A run there saves its tables, and neither script can use them. -/
example : ∃ fs', (formatSaveOutputs env0.cwd fsCsv (saveCfgOf cfg0) [] [] []
      [("Faustini".toList, []), ("Haworth".toList, [])] ([], [])).2 = .ok fs' ∧
    recentDepths fs' [dir0] = .error .osError ∧ ∀ l, ¬ EnsembleFinds fs' [] l := by
  obtain ⟨fs', h, -⟩ := C60_saved _ _ _ _ _ _ readyCsv ([] : CsvTable) [] [] ([], [])
  refine ⟨fs', h, C131_files_refuted _ _ _ _ _ _ readyCsv rfl _ _ _ _ _ h [], fun l hl => ?_⟩
  exact (C132_files_refuted _ _ _ _ _ _ readyCsv _ _ _ _ _ h [] l hl).2.2 rfl

/-- The names it looks for exist. -/
example : ensembleName "ice_columns_v1.csv".toList = true ∧ ensembleName "ice_columns.csv".toList = false := by
  decide

/-- Two runs with two cold traps: the curves are those of the second one. -/
example : ∃ fs cs m, ensemblePlot fs [[['a']], [['b']]] = .ok (some (cs, m)) ∧
    cs[1]? = some ([some (3 / 10 ^ 9), some (2 / 10 ^ 9)], [some 7, some 8]) := by
  let runs : List (Loc × List ℝ × List (String × List ℝ)) :=
    [([['a']], [4, 1], [("Haworth", [1, 2]), ("Shoemaker", [3, 4])]),
     ([['b']], [3, 2], [("Haworth", [5, 6]), ("Shoemaker", [7, 8])])]
  let fs : FS CsvTable :=
    { isDir := fun _ => false
      file := fun l => (runs.find? fun r => r.1 == l).map fun r => some (iceCsv r.2.1 r.2.2) }
  obtain ⟨cs, m, h1, -, h3, -⟩ := C132_curves fs runs
    (by intro r hr; simp only [runs, List.mem_cons, List.not_mem_nil, or_false] at hr
        rcases hr with rfl | rfl <;> rfl)
    (by intro r hr; simp only [runs, List.mem_cons, List.not_mem_nil, or_false] at hr
        rcases hr with rfl | rfl <;> exact le_refl 2)
    (by intro r hr; simp only [runs, List.mem_cons, List.not_mem_nil, or_false] at hr
        rcases hr with rfl | rfl <;> simp)
    (by simp [runs])
  exact ⟨fs, cs, m, h1, h3 1 _ ("Shoemaker", [7, 8]) rfl rfl⟩

/-- Two metres of ejecta over five of ice over three of ejecta: the script says 7, the ice begins
at 2. -/
example : recentDepth (oldLayout [⟨0, 3, "A", 30, 10, some 0⟩, ⟨5, 0, "Ice", 20, 7, some 100⟩,
    ⟨0, 2, "B", 10, 2, some 0⟩]) = .ok (some 7) :=
  ((C131_youngest _).1 _).2 ⟨1, _, ⟨rfl, by norm_num, fun j r' hj hr => by
    match j, hj, hr with
    | 2, _, hr =>
      simp only [List.getElem?_cons_succ, List.getElem?_cons_zero, Option.some.injEq] at hr
      rw [← hr]
    | j + 3, _, hr => simp at hr⟩, rfl⟩

/-- The table of one timestep with a metre of ice. -/
example : ∃ rows x, makeStratCol (1 / 10 : ℝ) 0 false 0 [⟨5, 1, 0, ""⟩] = .ok rows ∧
    recentDepth (oldLayout rows) = .ok (some x) := by
  obtain ⟨rows, hr⟩ : ∃ rows, makeStratCol (1 / 10 : ℝ) 0 false 0 [⟨5, 1, 0, ""⟩] = .ok rows := ⟨_, rfl⟩
  have hs := (C21_accounting _ _ _ _ _ _ hr).1
  refine ⟨rows, ?_⟩
  cases h : recentDepth (oldLayout rows) with
  | error e =>
    have hz := (((C131_youngest rows).2 e).1 h).2
    have hle : (rows.map (·.ice)).sum ≤ 0 := by
      clear hs hr h
      induction rows with
      | nil => simp
      | cons a l ih =>
        rw [List.map_cons, List.sum_cons]
        linarith [hz a List.mem_cons_self, ih fun r hr => hz r (List.mem_cons_of_mem _ hr)]
    rw [hs, List.filter_cons_of_pos (by norm_num [Counted])] at hle
    norm_num at hle
  | ok x =>
    obtain ⟨i, r, -, rfl⟩ := ((C131_youngest rows).1 x).1 h
    exact ⟨r.depth, hr, rfl⟩

end MoonPIES
