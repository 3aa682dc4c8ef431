import Verif.Lemmas.StratFig
import Verif.Props.PlotColumn

/-!
# C120: the figures of stratigraphy columns
-/

namespace MoonPIES

open Spec

set_option linter.unusedSectionVars false

variable {K : Type} [Field K] [LinearOrder K]

theorem axisOf_place (n s i : Nat) : axisOf n s i = place n s i := by
  unfold axisOf place; ring

theorem place_inj {n s i s' i' : Nat} (hi : i < n) (hi' : i' < n) (h : place n s i = place n s' i') :
    s = s' ∧ i = i' := by
  unfold place at h
  have h1 : (s * (n + 1) + i) % (n + 1) = i := by
    rw [Nat.mul_comm, Nat.mul_add_mod]; exact Nat.mod_eq_of_lt (by omega)
  have h2 : (s' * (n + 1) + i') % (n + 1) = i' := by
    rw [Nat.mul_comm, Nat.mul_add_mod]; exact Nat.mod_eq_of_lt (by omega)
  rw [h, h2] at h1
  subst h1
  have := Nat.add_right_cancel h
  exact ⟨Nat.eq_of_mul_eq_mul_right (by omega) this, rfl⟩

/-- **C120** the panels: row `r` of the figure is for run `r`; the panel of seed `s` and cold trap `i`
shows the column of its file, and is empty if there is no file; the gaps are empty. -/
theorem C120_columns {draw : List (StratRow K) → Except PyErr (Drawn K)}
    {sortDepth : List (CleanRow K) → List (CleanRow K)}
    {load : String → Int → String → Option (List (StratRow K))} {runs : List String} {seeds : List Int}
    {traps : List String} {fig : StratFigure K}
    (h : stratFigure draw sortDepth load runs seeds traps = .ok fig) :
    fig.rows.length = runs.length ∧
    (∀ r s i d, i < traps.length → (PanelShows fig r (place traps.length s i) d ↔
      ∃ table, FileAt load runs seeds traps r s i table ∧ draw table = .ok d)) ∧
    ∀ r a d, PanelShows fig r a d → ∃ s i, s < seeds.length ∧ i < traps.length ∧ a = place traps.length s i := by
  obtain ⟨-, -, h1, -, -, -⟩ := stratFigure_inv h
  obtain ⟨hlen, hall⟩ := drawRuns_inv h1
  refine ⟨hlen, ?_, ?_⟩
  · intro r s i d hi
    constructor
    · rintro ⟨row, sp, hrow, hmem, hcol⟩
      have hrl := (List.getElem?_eq_some_iff.1 hrow).1
      have hrun := List.getElem?_eq_getElem (show r < runs.length by omega)
      obtain ⟨hd, -⟩ := hall r _ row hrun hrow
      obtain ⟨hsp, sdf, hl, hdr⟩ := (drawRun_inv hd sp d).1 hmem
      obtain ⟨s', i', hs, hi', e⟩ := mem_colSpecs.1 hsp
      rw [hcol, axisOf_place] at e
      obtain ⟨rfl, rfl⟩ := place_inj hi (List.getElem?_eq_some_iff.1 hi').1 e
      exact ⟨sdf, ⟨_, _, _, hrun, hs, hi', hl⟩, hdr⟩
    · rintro ⟨table, ⟨run, seed, trap, hr, hs, ht, hl⟩, hdr⟩
      have hrl := (List.getElem?_eq_some_iff.1 hr).1
      have hrow := List.getElem?_eq_getElem (show r < fig.rows.length by omega)
      obtain ⟨hd, -⟩ := hall r _ _ hr hrow
      exact ⟨_, ⟨axisOf traps.length s i, seed, trap⟩, hrow, (drawRun_inv hd _ d).2
        ⟨mem_colSpecs.2 ⟨s, i, hs, ht, rfl⟩, table, hl, hdr⟩, axisOf_place _ _ _⟩
  · rintro r a d ⟨row, sp, hrow, hmem, rfl⟩
    have hrl := (List.getElem?_eq_some_iff.1 hrow).1
    obtain ⟨hd, -⟩ := hall r _ row (List.getElem?_eq_getElem (show r < runs.length by omega)) hrow
    obtain ⟨s, i, hs, hi, e⟩ := mem_colSpecs.1 ((drawRun_inv hd sp d).1 hmem).1
    exact ⟨s, i, (List.getElem?_eq_some_iff.1 hs).1, (List.getElem?_eq_some_iff.1 hi).1, by
      rw [e, axisOf_place]⟩

/-- **C120** the figure fails exactly if there is no seed, if one seed and no cold trap are asked for, or
if one of the files cannot be drawn; a missing file never matters. -/
theorem C120_fails (draw : List (StratRow K) → Except PyErr (Drawn K))
    (sortDepth : List (CleanRow K) → List (CleanRow K))
    (load : String → Int → String → Option (List (StratRow K))) (runs : List String) (seeds : List Int)
    (traps : List String) :
    (∃ e, stratFigure draw sortDepth load runs seeds traps = .error e) ↔
      seeds = [] ∨ (seeds.length = 1 ∧ traps = []) ∨
      ∃ r s i table, FileAt load runs seeds traps r s i table ∧ ∃ e, draw table = .error e := by
  unfold stratFigure
  have hz : (seeds.length = 0 ∨ axisCols seeds.length traps.length = 0) ↔
      (seeds = [] ∨ (seeds.length = 1 ∧ traps = [])) := by
    unfold axisCols
    rw [List.length_eq_zero_iff, ← List.length_eq_zero_iff (l := traps)]
    constructor
    · rintro (h | h)
      · exact Or.inl h
      · by_cases h0 : seeds = []
        · exact Or.inl h0
        · have : 0 < seeds.length := List.length_pos_iff.2 h0
          have h2 := (Nat.add_eq_zero_iff.1 h)
          have h1 : seeds.length = 1 := by omega
          rw [h1] at h2
          exact Or.inr ⟨h1, by omega⟩
    · rintro (h | ⟨h1, h2⟩)
      · exact Or.inl h
      · exact Or.inr (by rw [h1, h2])
  by_cases hc : seeds.length = 0 ∨ axisCols seeds.length traps.length = 0
  · rw [if_pos hc]
    have := hz.1 hc
    exact ⟨fun _ => by tauto, fun _ => ⟨_, rfl⟩⟩
  · rw [if_neg hc]
    rw [hz, not_or] at hc
    have key := drawRuns_error_iff draw load (colSpecs seeds traps) 0 runs
    have e1 : (∃ run ∈ runs, ∃ sp ∈ colSpecs seeds traps, ∃ sdf, load run sp.seed sp.trap = some sdf ∧
        ∃ e, draw sdf = .error e) ↔
        ∃ r s i table, FileAt load runs seeds traps r s i table ∧ ∃ e, draw table = .error e := by
      constructor
      · rintro ⟨run, hr, sp, hsp, sdf, hl, he⟩
        obtain ⟨r, hr⟩ := List.mem_iff_getElem?.1 hr
        obtain ⟨s, i, hs, hi, -⟩ := mem_colSpecs.1 hsp
        exact ⟨r, s, i, sdf, ⟨_, _, _, hr, hs, hi, hl⟩, he⟩
      · rintro ⟨r, s, i, sdf, ⟨run, seed, trap, hr, hs, hi, hl⟩, he⟩
        exact ⟨run, List.mem_of_getElem? hr, ⟨_, seed, trap⟩, mem_colSpecs.2 ⟨s, i, hs, hi, rfl⟩, sdf, hl, he⟩
    rw [e1] at key
    constructor
    · rintro ⟨e, he⟩
      refine Or.inr (Or.inr (key.1 ?_))
      cases hd : drawRuns draw load (colSpecs seeds traps) 0 runs with
      | error e' => exact ⟨e', rfl⟩
      | ok rows => simp only [hd, bind, Except.bind] at he; cases he
    · rintro (h | h | h)
      · exact absurd h hc.1
      · exact absurd h hc.2
      · obtain ⟨e, he⟩ := key.2 h
        exact ⟨e, by simp only [he, bind, Except.bind]⟩

/-- **C120** the titles: over each column of the first run, and only there, the name of the cold trap and
the formation time of its file. -/
theorem C120_titles {draw : List (StratRow K) → Except PyErr (Drawn K)}
    {sortDepth : List (CleanRow K) → List (CleanRow K)}
    {load : String → Int → String → Option (List (StratRow K))} {runs : List String} {seeds : List Int}
    {traps : List String} {fig : StratFigure K}
    (h : stratFigure draw sortDepth load runs seeds traps = .ok fig) (a : Nat) (name : String) (t : K) :
    (a, name, t) ∈ fig.titles ↔ ∃ s i table d, FileAt load runs seeds traps 0 s i table ∧
      draw table = .ok d ∧ a = place traps.length s i ∧ traps[i]? = some name ∧ t = d.age := by
  obtain ⟨-, -, h1, -, h2, -⟩ := stratFigure_inv h
  obtain ⟨hlen, hall⟩ := drawRuns_inv h1
  rw [h2]
  cases hr : fig.rows with
  | nil =>
    rw [hr] at hlen
    simp only [List.not_mem_nil, false_iff]
    rintro ⟨s, i, table, d, ⟨run, seed, trap, h0, -⟩, -⟩
    have := (List.getElem?_eq_some_iff.1 h0).1
    simp at hlen
    omega
  | cons row rows =>
    rw [hr] at hlen hall
    cases hruns : runs with
    | nil => rw [hruns] at hlen; simp at hlen
    | cons run rest =>
      rw [hruns] at hall
      obtain ⟨hd, -⟩ := hall 0 run row rfl rfl
      simp only [List.mem_map, Prod.exists, Prod.mk.injEq]
      constructor
      · rintro ⟨sp, d, hm, rfl, rfl, rfl⟩
        obtain ⟨hsp, sdf, hl, hdr⟩ := (drawRun_inv hd sp d).1 hm
        obtain ⟨s, i, hs, hi, e⟩ := mem_colSpecs.1 hsp
        exact ⟨s, i, sdf, d, ⟨run, _, _, rfl, hs, hi, hl⟩, hdr, by rw [e, axisOf_place], hi, rfl⟩
      · rintro ⟨s, i, table, d, ⟨run', seed, trap, h0, hs, hi, hl⟩, hdr, rfl, hn, rfl⟩
        simp only [List.getElem?_cons_zero, Option.some.injEq] at h0
        subst h0
        rw [hi] at hn
        injection hn with hn
        subst hn
        exact ⟨⟨axisOf traps.length s i, seed, trap⟩, d, (drawRun_inv hd _ d).2
          ⟨mem_colSpecs.2 ⟨s, i, hs, hi, rfl⟩, table, hl, hdr⟩, axisOf_place _ _ _, rfl, rfl⟩

theorem setPct_keys (k : String × Int × String) (v : List (Option K)) :
    ∀ l : List ((String × Int × String) × List (Option K)), (l.map Prod.fst).Nodup →
      ((setPct k v l).map Prod.fst).Nodup ∧ ∀ k' v', (k', v') ∈ setPct k v l ↔
        (k' = k ∧ v' = v) ∨ (k' ≠ k ∧ (k', v') ∈ l)
  | [], _ => by
    refine ⟨by simp [setPct], fun k' v' => ?_⟩
    simp [setPct]
  | e :: l, hn => by
    rw [List.map_cons, List.nodup_cons] at hn
    unfold setPct
    split
    · rename_i he
      refine ⟨by rw [List.map_cons, List.nodup_cons]; exact ⟨he ▸ hn.1, hn.2⟩, fun k' v' => ?_⟩
      simp only [List.mem_cons, Prod.mk.injEq]
      constructor
      · rintro (h | h)
        · exact Or.inl h
        · refine Or.inr ⟨?_, Or.inr h⟩
          rintro rfl
          exact hn.1 (he ▸ List.mem_map.2 ⟨_, h, rfl⟩)
      · rintro (h | ⟨h1, h2⟩)
        · exact Or.inl h
        · rcases h2 with h2 | h2
          · exact absurd (by rw [← he, ← h2]) h1
          · exact Or.inr h2
    · rename_i he
      obtain ⟨i1, i2⟩ := setPct_keys k v l hn.2
      constructor
      · rw [List.map_cons, List.nodup_cons]
        refine ⟨?_, i1⟩
        intro hm
        obtain ⟨⟨k', v'⟩, hm, e'⟩ := List.mem_map.1 hm
        simp only [] at e'
        rcases (i2 k' v').1 hm with ⟨rfl, -⟩ | ⟨-, h⟩
        · exact he e'.symm
        · exact hn.1 (List.mem_map.2 ⟨_, h, e'⟩)
      · intro k' v'
        simp only [List.mem_cons]
        rw [i2 k' v']
        constructor
        · rintro (rfl | h | ⟨h1, h2⟩)
          · exact Or.inr ⟨he, Or.inl rfl⟩
          · exact Or.inl h
          · exact Or.inr ⟨h1, Or.inr h2⟩
        · rintro (h | ⟨h1, h2 | h2⟩)
          · exact Or.inr (Or.inl h)
          · exact Or.inl h2
          · exact Or.inr (Or.inr ⟨h1, h2⟩)

/-- A table filled by a list of writes in which a key always comes with the same value. -/
theorem foldl_setPct (ws : List ((String × Int × String) × List (Option K)))
    (hf : ∀ k v v', (k, v) ∈ ws → (k, v') ∈ ws → v = v') :
    ((ws.foldl (fun d w => setPct w.1 w.2 d) []).map Prod.fst).Nodup ∧
      ∀ k v, (k, v) ∈ ws.foldl (fun d w => setPct w.1 w.2 d) [] ↔ (k, v) ∈ ws := by
  induction ws using List.reverseRecOn with
  | nil => simp
  | append_singleton ws w ih =>
    obtain ⟨i1, i2⟩ := ih (fun k v v' h h' => hf k v v' (by simp [h]) (by simp [h']))
    rw [List.foldl_append, List.foldl_cons, List.foldl_nil]
    obtain ⟨j1, j2⟩ := setPct_keys w.1 w.2 _ i1
    refine ⟨j1, fun k v => ?_⟩
    rw [j2, i2]
    simp only [List.mem_append, List.mem_singleton]
    constructor
    · rintro (⟨rfl, rfl⟩ | ⟨-, h⟩)
      · exact Or.inr rfl
      · exact Or.inl h
    · rintro (h | h)
      · by_cases hk : k = w.1
        · refine Or.inl ⟨hk, hf k v w.2 (by simp [h]) (by simp [hk])⟩
        · exact Or.inr ⟨hk, h⟩
      · left; rw [← h]; exact ⟨rfl, rfl⟩

/-- **C120** the table of ice percentages has one entry for each run, seed and cold trap of which there is
a file: the percentages of the cleaned layers, from the top down. -/
theorem C120_percentages {draw : List (StratRow K) → Except PyErr (Drawn K)}
    {sortDepth : List (CleanRow K) → List (CleanRow K)}
    {load : String → Int → String → Option (List (StratRow K))} {runs : List String} {seeds : List Int}
    {traps : List String} {fig : StratFigure K}
    (h : stratFigure draw sortDepth load runs seeds traps = .ok fig) :
    (fig.icepct.map Prod.fst).Nodup ∧ ∀ run seed trap v, ((run, seed, trap), v) ∈ fig.icepct ↔
      run ∈ runs ∧ seed ∈ seeds ∧ trap ∈ traps ∧ ∃ table d, load run seed trap = some table ∧
        draw table = .ok d ∧ v = (sortDepth d.clean).map (·.icepct) := by
  obtain ⟨-, -, h1, -, -, h2⟩ := stratFigure_inv h
  obtain ⟨hlen, hall⟩ := drawRuns_inv h1
  obtain ⟨ws, hws⟩ : ∃ t : List ((String × Int × String) × List (Option K)), t =
    (runs.zip fig.rows).flatMap (fun rr => rr.2.cols.map fun p =>
      ((rr.1, p.1.seed, p.1.trap), (sortDepth p.2.clean).map (·.icepct))) := ⟨_, rfl⟩
  have hfold : fig.icepct = ws.foldl (fun d w => setPct w.1 w.2 d) [] := by
    rw [h2, hws, List.foldl_flatMap]
    congr 1
    funext d rr
    rw [List.foldl_map]
  have hmem : ∀ run seed trap v, ((run, seed, trap), v) ∈ ws ↔
      run ∈ runs ∧ seed ∈ seeds ∧ trap ∈ traps ∧ ∃ table d, load run seed trap = some table ∧
        draw table = .ok d ∧ v = (sortDepth d.clean).map (·.icepct) := by
    intro run seed trap v
    rw [hws]
    simp only [List.mem_flatMap, List.mem_map, Prod.exists, Prod.mk.injEq]
    constructor
    · rintro ⟨run', row, hz, sp, d, hm, ⟨rfl, rfl, rfl⟩, rfl⟩
      obtain ⟨r, hr⟩ := List.mem_iff_getElem?.1 hz
      obtain ⟨z1, z2⟩ := List.getElem?_zip_eq_some.1 hr
      obtain ⟨hd, -⟩ := hall r _ _ z1 z2
      obtain ⟨hsp, sdf, hl, hdr⟩ := (drawRun_inv hd sp d).1 hm
      obtain ⟨s, i, hs, hi, -⟩ := mem_colSpecs.1 hsp
      exact ⟨List.mem_of_getElem? z1, List.mem_of_getElem? hs, List.mem_of_getElem? hi, sdf, d, hl, hdr, rfl⟩
    · rintro ⟨hr, hs, hi, table, d, hl, hdr, rfl⟩
      obtain ⟨r, hr⟩ := List.mem_iff_getElem?.1 hr
      obtain ⟨s, hs⟩ := List.mem_iff_getElem?.1 hs
      obtain ⟨i, hi⟩ := List.mem_iff_getElem?.1 hi
      have hrl := (List.getElem?_eq_some_iff.1 hr).1
      have hrow := List.getElem?_eq_getElem (show r < fig.rows.length by omega)
      obtain ⟨hd, -⟩ := hall r _ _ hr hrow
      exact ⟨run, _, List.mem_iff_getElem?.2 ⟨r, List.getElem?_zip_eq_some.2 ⟨hr, hrow⟩⟩,
        ⟨axisOf traps.length s i, seed, trap⟩, d, (drawRun_inv hd _ d).2
          ⟨mem_colSpecs.2 ⟨s, i, hs, hi, rfl⟩, table, hl, hdr⟩, ⟨rfl, rfl, rfl⟩, rfl⟩
  obtain ⟨k1, k2⟩ := foldl_setPct ws (by
    rintro ⟨run, seed, trap⟩ v v' h h'
    obtain ⟨-, -, -, t, d, e1, e2, rfl⟩ := (hmem _ _ _ _).1 h
    obtain ⟨-, -, -, t', d', e1', e2', rfl⟩ := (hmem _ _ _ _).1 h'
    rw [e1] at e1'
    injection e1' with e1'
    subst e1'
    rw [e2] at e2'
    injection e2' with e2'
    rw [e2'])
  rw [hfold]
  refine ⟨k1, fun run seed trap v => ?_⟩
  rw [k2, hmem]

/-- **C120** letters of `strat_cols_seeds`: with three seeds or more, A, B and C stand at the first column
of the first three sets exactly if there are three cold traps. -/
theorem C120_seed_letters {draw : List (StratRow K) → Except PyErr (Drawn K)}
    {sortDepth : List (CleanRow K) → List (CleanRow K)}
    {load : String → Int → String → Option (List (StratRow K))} {runs : List String} {seeds : List Int}
    {traps : List String} {fig : StratFigure K}
    (h : stratFigure draw sortDepth load runs seeds traps = .ok fig) (hr : runs ≠ [])
    (hs : 3 ≤ seeds.length) (ht : traps ≠ []) :
    seedLetters fig.axes = .ok [.panel 0 (place traps.length 0 0), .panel 0 (place traps.length 1 0),
      .panel 0 (place traps.length 2 0)] ↔ traps.length = 3 := by
  obtain ⟨-, -, h1, h2, -, -⟩ := stratFigure_inv h
  obtain ⟨hlen, -⟩ := drawRuns_inv h1
  have ht' : 0 < traps.length := List.length_pos_iff.2 ht
  have hr' : 0 < runs.length := List.length_pos_iff.2 hr
  obtain ⟨row, rows, hrows⟩ : ∃ row rows, fig.rows = row :: rows := by
    cases hf : fig.rows with
    | nil => rw [hf] at hlen; simp at hlen; omega
    | cons a l => exact ⟨a, l, rfl⟩
  have hcols : 3 * traps.length + 2 ≤ axisCols seeds.length traps.length := by
    unfold axisCols
    have := Nat.mul_le_mul_right traps.length hs
    omega
  have hax : ∀ i, i < axisCols seeds.length traps.length → fig.axes[i + 1]? = some (.panel 0 i) := by
    intro i hi
    rw [h2, hrows]
    exact figAxes_first _ _ _ i hi
  have a0 := hax 0 (by omega)
  have a4 := hax 4 (by omega)
  unfold seedLetters
  constructor
  · intro e
    obtain ⟨-, hall⟩ := mapM_ok_inv _ _ _ e
    obtain ⟨b, hb, hfb⟩ := hall 1 5 rfl
    simp only [List.getElem?_cons_succ, List.getElem?_cons_zero, Option.some.injEq] at hb
    rw [a4] at hfb
    injection hfb with hfb
    rw [← hfb] at hb
    injection hb with _ hb
    unfold place at hb
    omega
  · intro e
    have a8 := hax 8 (by omega)
    simp only [List.mapM_cons, List.mapM_nil, a0, a4, a8, e, bind, Except.bind, pure, Except.pure, place]

theorem figAxes_second (ncols : Nat) (hn : 0 < ncols) (row row' : RunRow K) (rows : List (RunRow K)) :
    ((figAxes ncols (row :: row' :: rows)).drop 2).find? (fun b => decide (axRow b ≠ some 0)) =
      some (.panel 1 0) := by
  obtain ⟨n, rfl⟩ : ∃ n, ncols = n + 1 := ⟨ncols - 1, by omega⟩
  unfold figAxes
  simp only [List.zipIdx_cons, List.flatMap_cons, List.range_succ_eq_map, List.map_cons, List.cons_append,
    List.drop_succ_cons, List.drop_zero, zero_add]
  rw [List.find?_append, List.find?_append, List.find?_eq_none.2, List.find?_eq_none.2]
  · simp [axRow]
  · intro x hx
    obtain ⟨q, -, rfl⟩ := List.mem_map.1 hx
    simp [axRow]
  · intro x hx
    simp only [List.map_map, List.mem_map, Function.comp] at hx
    obtain ⟨q, -, rfl⟩ := hx
    simp [axRow]

/-- **C120** letters of `strat_cols_bsed`: A stands at the first column of the first run and B at that of
the second; with one run there is no axis for B and the figure fails. -/
theorem C120_bsed_letters {draw : List (StratRow K) → Except PyErr (Drawn K)}
    {sortDepth : List (CleanRow K) → List (CleanRow K)}
    {load : String → Int → String → Option (List (StratRow K))} {runs : List String} {seeds : List Int}
    {traps : List String} {fig : StratFigure K}
    (h : stratFigure draw sortDepth load runs seeds traps = .ok fig) :
    (2 ≤ runs.length → bsedLetters fig.axes = .ok (.panel 0 0, some (.panel 1 0))) ∧
    (runs.length = 1 → bsedLetters fig.axes = .ok (.panel 0 0, none)) ∧
    (runs = [] → bsedLetters fig.axes = .error .indexError) := by
  obtain ⟨-, hc, h1, h2, -, -⟩ := stratFigure_inv h
  obtain ⟨hlen, -⟩ := drawRuns_inv h1
  have hc' := Nat.pos_of_ne_zero hc
  rw [h2]
  unfold bsedLetters
  refine ⟨?_, ?_, ?_⟩
  · intro hr
    match hf : fig.rows with
    | [] => rw [hf] at hlen; simp at hlen; omega
    | [_] => rw [hf] at hlen; simp at hlen; omega
    | row :: row' :: rows =>
      rw [figAxes_first _ _ _ 0 hc']
      exact congrArg (fun x => Except.ok (FigAx.panel 0 0, x)) (figAxes_second _ hc' row row' rows)
  · intro hr
    match hf : fig.rows with
    | [] => rw [hf] at hlen; simp at hlen; omega
    | row :: row' :: rows => rw [hf] at hlen; simp at hlen; omega
    | [row] =>
      rw [figAxes_first _ _ _ 0 hc']
      simp only [Except.ok.injEq, Prod.mk.injEq, true_and]
      rw [List.find?_eq_none]
      intro x hx
      have hx' := List.mem_of_mem_drop (i := 1) (l := (figAxes (axisCols seeds.length traps.length) [row]).drop 1)
        (by rw [List.drop_drop]; exact hx)
      unfold figAxes at hx'
      simp only [List.drop_succ_cons, List.drop_zero, List.zipIdx_cons, List.zipIdx_nil, List.flatMap_cons,
        List.flatMap_nil, List.append_nil, List.mem_append, List.mem_map] at hx'
      rcases hx' with ⟨i, -, rfl⟩ | ⟨q, -, rfl⟩ <;> simp [axRow]
  · rintro rfl
    match hf : fig.rows with
    | [] => rfl
    | row :: rows => rw [hf] at hlen; simp at hlen

section limits

variable [IsStrictOrderedRing K] [FloorRing K]

/-- Spec: a table as a run writes it, of layers that can be drawn. -/
def Spec.Written (cdf : SizeTable K) (table : List (StratRow K)) : Prop :=
  ∃ thickMin tol age, ∃ steps : List (Step K), 0 ≤ thickMin ∧ (∀ s ∈ steps, 0 ≤ s.ice ∧ 0 ≤ s.ejecta) ∧
    (∀ s ∈ steps, GoodSource cdf s.src) ∧ makeStratCol thickMin tol true age steps = .ok table

theorem written_clean {hash : String → Int} {sortDepth : List (CleanRow K) → List (CleanRow K)}
    {sortDiam : SizeTable K → SizeTable K} (h1 : SortsBy (fun r => r.depth) sortDepth)
    (h2 : SortsBy (fun r : String × K => r.2) sortDiam) {cdf : SizeTable K} {minThick : K}
    {table : List (StratRow K)} (hw : Written cdf table) {d : Drawn K}
    (hd : plotColumn hash sortDepth sortDiam cdf minThick table = .ok d) :
    (∀ x, (∃ c ∈ d.clean, c.depth = x) ↔ ∃ r, Kept minThick table r ∧ r.depth = x) := by
  obtain ⟨thickMin, tol, age, steps, w1, w2, w3, w4⟩ := hw
  obtain ⟨-, k⟩ := C86_column_partial hash h1 h2 cdf minThick thickMin tol age steps w1 w2 w3 table w4
  obtain ⟨-, hc, -⟩ := k d hd
  intro x
  rw [hc]
  simp only [List.mem_map, List.mem_filter, decide_eq_true_eq]
  constructor
  · rintro ⟨c, ⟨r, ⟨hr, hk⟩, rfl⟩, rfl⟩
    exact ⟨r, ⟨hr, hk⟩, rfl⟩
  · rintro ⟨r, ⟨hr, hk⟩, rfl⟩
    exact ⟨_, ⟨r, ⟨hr, hk⟩, rfl⟩, rfl⟩

/-- **C120** the scale: the depth axes of row `r` reach down to the deepest of the layers drawn in this
row and the rows above it. -/
theorem C120_limits (hash : String → Int) {sortDepth : List (CleanRow K) → List (CleanRow K)}
    {sortDiam : SizeTable K → SizeTable K} (h1 : SortsBy (fun r => r.depth) sortDepth)
    (h2 : SortsBy (fun r : String × K => r.2) sortDiam) (cdf : SizeTable K) (minThick : K)
    (load : String → Int → String → Option (List (StratRow K)))
    (hload : ∀ run seed trap table, load run seed trap = some table → Written cdf table)
    (runs : List String) (seeds : List Int) (traps : List String) (fig : StratFigure K)
    (h : stratFigure (plotColumn hash sortDepth sortDiam cdf minThick) sortDepth load runs seeds traps =
      .ok fig) (r : Nat) (row : RunRow K) (hr : fig.rows[r]? = some row) :
    Deepest (DrawnBase load runs seeds traps minThick r) row.limit := by
  obtain ⟨-, -, g1, -, -, -⟩ := stratFigure_inv h
  obtain ⟨hlen, hall⟩ := drawRuns_inv g1
  -- one row: from the depth `m` reached before it to its limit
  have hstep : ∀ (r : Nat) (run : String) (row : RunRow K) (m : K), runs[r]? = some run →
      drawRun (plotColumn hash sortDepth sortDiam cdf minThick) (load run) (colSpecs seeds traps) =
        .ok row.cols → row.limit = row.cols.foldl (fun m p => deeper m p.2) m →
      m ≤ row.limit ∧
      (∀ s i table y, FileAt load runs seeds traps r s i table → Kept minThick table y →
        y.depth ≤ row.limit) ∧
      (row.limit = m ∨ row.limit = 0 ∨ ∃ s i table y, FileAt load runs seeds traps r s i table ∧
        Kept minThick table y ∧ y.depth = row.limit) := by
    intro r run row m hrun hd hlim
    obtain ⟨f1, f2, f3⟩ := foldl_deeper row.cols m
    rw [← hlim] at f1 f2 f3
    refine ⟨f1, ?_, ?_⟩
    · rintro s i table y ⟨run', seed, trap, hr', hs, hi, hl⟩ hk
      rw [hrun] at hr'
      injection hr' with hr'
      subst hr'
      have hsp : (⟨axisOf traps.length s i, seed, trap⟩ : ColSpec) ∈ colSpecs seeds traps :=
        mem_colSpecs.2 ⟨s, i, hs, hi, rfl⟩
      cases hp : plotColumn hash sortDepth sortDiam cdf minThick table with
      | error e =>
        obtain ⟨e', he'⟩ := (drawRun_error_iff (plotColumn hash sortDepth sortDiam cdf minThick) (load run)
          (colSpecs seeds traps)).2 ⟨_, hsp, table, hl, e, hp⟩
        rw [hd] at he'
        cases he'
      | ok d =>
        have hm := (drawRun_inv hd _ d).2 ⟨hsp, table, hl, hp⟩
        obtain ⟨c, hc, hcd⟩ := (written_clean h1 h2 (hload _ _ _ _ hl) hp y.depth).2 ⟨y, hk, rfl⟩
        obtain ⟨x, hx, hcx, -⟩ := (colDepth_plot h1 hp).1 c hc
        rw [← hcd]
        exact hcx.trans (f2 _ hm x hx)
    · rcases f3 with e | ⟨⟨sp, d⟩, hm, e⟩
      · exact Or.inl e
      · right
        obtain ⟨hsp, table, hl, hp⟩ := (drawRun_inv hd sp d).1 hm
        obtain ⟨s, i, hs, hi, -⟩ := mem_colSpecs.1 hsp
        rcases (colDepth_plot h1 hp).2 _ e with e0 | ⟨c, hc, e0⟩
        · exact Or.inl e0
        · obtain ⟨y, hy, hyd⟩ := (written_clean h1 h2 (hload _ _ _ _ hl) hp _).1 ⟨c, hc, e0.symm⟩
          exact Or.inr ⟨s, i, table, y, ⟨run, _, _, hrun, hs, hi, hl⟩, hy, hyd⟩
  induction r generalizing row with
  | zero =>
    have hrl := (List.getElem?_eq_some_iff.1 hr).1
    obtain ⟨run, hrun⟩ : ∃ run, runs[0]? = some run :=
      ⟨_, List.getElem?_eq_getElem (show 0 < runs.length by omega)⟩
    obtain ⟨hd, m', hm', hlim⟩ := hall 0 run row hrun hr
    rcases hm' with ⟨-, rfl⟩ | ⟨q, row', hq, -⟩
    swap
    · omega
    obtain ⟨s1, s2, s3⟩ := hstep 0 run row 0 hrun hd hlim
    refine ⟨s1, ?_, ?_⟩
    · rintro x ⟨r', s, i, table, y, hr', hf, hk, rfl⟩
      obtain rfl : r' = 0 := by omega
      exact s2 s i table y hf hk
    · rcases s3 with e | e | ⟨s, i, table, y, hf, hk, e⟩
      · exact Or.inl e
      · exact Or.inl e
      · exact Or.inr ⟨0, s, i, table, y, le_rfl, hf, hk, e⟩
  | succ r ih =>
    have hrl := (List.getElem?_eq_some_iff.1 hr).1
    obtain ⟨run, hrun⟩ : ∃ run, runs[r + 1]? = some run :=
      ⟨_, List.getElem?_eq_getElem (show r + 1 < runs.length by omega)⟩
    obtain ⟨hd, m', hm', hlim⟩ := hall (r + 1) run row hrun hr
    rcases hm' with ⟨h0, -⟩ | ⟨q, row', hq, hrow', rfl⟩
    · omega
    obtain rfl : q = r := by omega
    obtain ⟨i1, i2, i3⟩ := ih row' hrow'
    obtain ⟨s1, s2, s3⟩ := hstep (q + 1) run row _ hrun hd hlim
    refine ⟨i1.trans s1, ?_, ?_⟩
    · rintro x ⟨r', s, i, table, y, hr', hf, hk, rfl⟩
      rcases Nat.lt_or_ge q r' with hlt | hge
      · obtain rfl : r' = q + 1 := by omega
        exact s2 s i table y hf hk
      · exact (i2 _ ⟨r', s, i, table, y, hge, hf, hk, rfl⟩).trans s1
    · rcases s3 with e | e | ⟨s, i, table, y, hf, hk, e⟩
      · rw [e]
        rcases i3 with e' | ⟨r', s, i, table, y, hr', hf, hk, e'⟩
        · exact Or.inl e'
        · exact Or.inr ⟨r', s, i, table, y, by omega, hf, hk, e'⟩
      · exact Or.inl e
      · exact Or.inr ⟨q + 1, s, i, table, y, le_rfl, hf, hk, e⟩

/-- **C120** no row hides a layer below its lower edge, lower rows have no finer scale, and the rows have
one scale exactly if no layer of a later run is deeper than the first row reaches. -/
theorem C120_scale_partial (hash : String → Int) {sortDepth : List (CleanRow K) → List (CleanRow K)}
    {sortDiam : SizeTable K → SizeTable K} (h1 : SortsBy (fun r => r.depth) sortDepth)
    (h2 : SortsBy (fun r : String × K => r.2) sortDiam) (cdf : SizeTable K) (minThick : K)
    (load : String → Int → String → Option (List (StratRow K)))
    (hload : ∀ run seed trap table, load run seed trap = some table → Written cdf table)
    (runs : List String) (seeds : List Int) (traps : List String) (fig : StratFigure K)
    (h : stratFigure (plotColumn hash sortDepth sortDiam cdf minThick) sortDepth load runs seeds traps =
      .ok fig) :
    (∀ (r : Nat) row s i table y, fig.rows[r]? = some row → FileAt load runs seeds traps r s i table →
      Kept minThick table y → y.depth ≤ row.limit) ∧
    (∀ (r r' : Nat) row row', r ≤ r' → fig.rows[r]? = some row → fig.rows[r']? = some row' →
      row.limit ≤ row'.limit) ∧
    ∀ first, fig.rows[0]? = some first → ((∀ row ∈ fig.rows, row.limit = first.limit) ↔
      ∀ r s i table y, FileAt load runs seeds traps r s i table → Kept minThick table y →
        y.depth ≤ first.limit) := by
  have hlim := C120_limits hash h1 h2 cdf minThick load hload runs seeds traps fig h
  have hmono : ∀ (r r' : Nat) row row', r ≤ r' → fig.rows[r]? = some row → fig.rows[r']? = some row' →
      row.limit ≤ row'.limit := by
    intro r r' row row' hrr hr hr'
    obtain ⟨a1, a2, a3⟩ := hlim r row hr
    obtain ⟨b1, b2, -⟩ := hlim r' row' hr'
    rcases a3 with e | ⟨q, s, i, table, y, hq, hf, hk, e⟩
    · rw [e]; exact b1
    · exact b2 _ ⟨q, s, i, table, y, hq.trans hrr, hf, hk, e⟩
  refine ⟨?_, hmono, ?_⟩
  · intro r row s i table y hr hf hk
    exact (hlim r row hr).2.1 _ ⟨r, s, i, table, y, le_rfl, hf, hk, rfl⟩
  · intro first hfirst
    obtain ⟨-, -, g1, -, -, -⟩ := stratFigure_inv h
    obtain ⟨hlen, -⟩ := drawRuns_inv g1
    constructor
    · intro hall r s i table y hf hk
      obtain ⟨run, seed, trap, hr, -⟩ := id hf
      have hrl := (List.getElem?_eq_some_iff.1 hr).1
      have hrow := List.getElem?_eq_getElem (show r < fig.rows.length by omega)
      rw [← hall _ (List.mem_of_getElem? hrow)]
      exact (hlim r _ hrow).2.1 _ ⟨r, s, i, table, y, le_rfl, hf, hk, rfl⟩
    · intro hall row hrow
      obtain ⟨r, hr⟩ := List.mem_iff_getElem?.1 hrow
      apply le_antisymm
      · rcases (hlim r row hr).2.2 with e | ⟨q, s, i, table, y, -, hf, hk, e⟩
        · rw [e]; exact (hlim 0 first hfirst).1
        · rw [← e]; exact hall q s i table y hf hk
      · exact hmono 0 r first row (Nat.zero_le _) hfirst hr

end limits

/-- Files of two runs: the ejecta of `exThinSteps`, and the same with thicker ejecta on top. -/
def exStratLoad (run : String) (seed : Int) (trap : String) : Option (List (StratRow ℚ)) :=
  if trap = "Faustini" ∧ seed = 1 then
    if run = "moonpies" then (makeStratCol (1 / 10 : ℚ) (1 / 1000) true 4 exThinSteps).toOption
    else if run = "no_bsed" then
      (makeStratCol (1 / 10 : ℚ) (1 / 1000) true 4 (exThinSteps ++ [⟨0, 0, 9, "Haworth"⟩])).toOption
    else none
  else none

/-- **C120 refuted** the rows are not drawn to one scale: if the second run is deeper its layers are drawn
smaller than those of the first, which then reach further down the page than layers of the same depth in
the second. -/
theorem C120_scale_refuted :
    ∃ load : String → Int → String → Option (List (StratRow ℚ)), ∃ fig row row',
      (∀ run seed trap table, load run seed trap = some table → Written [("Haworth", (51 : ℚ))] table) ∧
      stratFigure (plotColumn (fun s => s.length) (sortOn (·.depth)) (sortOn (·.2)) [("Haworth", (51 : ℚ))] 1)
        (sortOn (·.depth)) load ["moonpies", "no_bsed"] [1] ["Faustini"] = .ok fig ∧
      fig.rows = [row, row'] ∧ row.limit = 15 / 2 ∧ row'.limit = 33 / 2 := by
  have hA : (stratFigure (plotColumn (fun s => s.length) (sortOn (·.depth)) (sortOn (·.2))
      [("Haworth", (51 : ℚ))] 1) (sortOn (·.depth)) exStratLoad ["moonpies", "no_bsed"] [1]
      ["Faustini"]).map (fun f => f.rows.map (·.limit)) = .ok [15 / 2, 33 / 2] := by decide +kernel
  refine ⟨exStratLoad, ?_⟩
  cases hf : stratFigure (plotColumn (fun s => s.length) (sortOn (·.depth)) (sortOn (·.2))
      [("Haworth", (51 : ℚ))] 1) (sortOn (·.depth)) exStratLoad ["moonpies", "no_bsed"] [1]
      ["Faustini"] with
  | error e => rw [hf] at hA; cases hA
  | ok fig =>
    rw [hf] at hA
    simp only [Except.map, Except.ok.injEq] at hA
    match hrows : fig.rows with
    | [] => rw [hrows] at hA; cases hA
    | [_] => rw [hrows] at hA; simp at hA
    | _ :: _ :: _ :: _ => rw [hrows] at hA; simp at hA
    | [row, row'] =>
      rw [hrows] at hA
      simp only [List.map_cons, List.map_nil, List.cons.injEq, and_true] at hA
      refine ⟨fig, row, row', ?_, rfl, hrows, hA.1, hA.2⟩
      have hgood : ∀ s ∈ exThinSteps ++ [⟨0, 0, 9, "Haworth"⟩], GoodSource [("Haworth", (51 : ℚ))] s.src := by
        intro s hs
        simp only [exThinSteps, List.cons_append, List.nil_append, List.mem_cons, List.not_mem_nil,
          or_false] at hs
        rcases hs with rfl | rfl | rfl | rfl | rfl
        · exact Or.inl rfl
        · exact Or.inr ⟨by decide, by decide, drawable_single _ (by decide)⟩
        · exact Or.inl rfl
        · exact Or.inr ⟨by decide, by decide, drawable_single _ (by decide)⟩
        · exact Or.inr ⟨by decide, by decide, drawable_single _ (by decide)⟩
      have hopt : ∀ (x : Except PyErr (List (StratRow ℚ))) t, x.toOption = some t → x = .ok t := by
        intro x t h
        cases x with
        | error e => cases h
        | ok y => injection h with h; rw [h]
      intro run seed trap table hl
      unfold exStratLoad at hl
      split at hl
      · split at hl
        · exact ⟨_, _, _, exThinSteps, by norm_num, by decide +kernel, fun s hs => hgood s (by simp [hs]),
            hopt _ _ hl⟩
        · split at hl
          · exact ⟨_, _, _, _, by norm_num, by decide +kernel, hgood, hopt _ _ hl⟩
          · cases hl
      · cases hl

/-- Three seeds and three cold traps, some files missing: the letters of `strat_cols_seeds`, the titles
and the table. -/
example : ((stratFigure (plotColumn (fun s => s.length) (sortOn (·.depth)) (sortOn (·.2))
      [("Haworth", (51 : ℚ))] 1) (sortOn (·.depth)) exStratLoad ["moonpies"] [13, 1, 8]
      ["Faustini", "Haworth", "Cabeus"]).bind (fun f => seedLetters f.axes)) =
    .ok [.panel 0 0, .panel 0 4, .panel 0 8] ∧
    ((stratFigure (plotColumn (fun s => s.length) (sortOn (·.depth)) (sortOn (·.2))
      [("Haworth", (51 : ℚ))] 1) (sortOn (·.depth)) exStratLoad ["moonpies"] [13, 1, 8]
      ["Faustini", "Haworth", "Cabeus"]).map (fun f => f.titles)) = .ok [(4, "Faustini", 4)] ∧
    ((stratFigure (plotColumn (fun s => s.length) (sortOn (·.depth)) (sortOn (·.2))
      [("Haworth", (51 : ℚ))] 1) (sortOn (·.depth)) exStratLoad ["moonpies"] [13, 1, 8]
      ["Faustini", "Haworth", "Cabeus"]).map (fun f => f.icepct)) =
      .ok [(("moonpies", 1, "Faustini"), [some 0, some 0])] := by decide +kernel

/-- The letters of `strat_cols_bsed`. -/
example : ((stratFigure (plotColumn (fun s => s.length) (sortOn (·.depth)) (sortOn (·.2))
      [("Haworth", (51 : ℚ))] 1) (sortOn (·.depth)) exStratLoad ["moonpies", "no_bsed"] [1]
      ["Faustini", "Haworth"]).bind (fun f => bsedLetters f.axes)) =
    .ok (.panel 0 0, some (.panel 1 0)) := by decide +kernel

end MoonPIES
