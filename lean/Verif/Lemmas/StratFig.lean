import Verif.Spec.StratFig
import Verif.Lemmas.Main
import Verif.Lemmas.Thermal
import Verif.Lemmas.MeltLoop
import Verif.Lemmas.PlotColumn

/-!
# Lemmas about the figures of stratigraphy columns
-/

namespace MoonPIES

open Spec

set_option linter.unusedSectionVars false

variable {K : Type} [Field K] [LinearOrder K]

theorem mem_colSpecs {seeds : List Int} {traps : List String} {sp : ColSpec} :
    sp ∈ colSpecs seeds traps ↔ ∃ s i, seeds[s]? = some sp.seed ∧ traps[i]? = some sp.trap ∧
      sp.col = axisOf traps.length s i := by
  unfold colSpecs
  simp only [List.mem_flatMap, List.mem_map, Prod.exists, List.mem_zipIdx_iff_getElem?]
  constructor
  · rintro ⟨seed, s, h1, trap, i, h2, rfl⟩
    exact ⟨s, i, h1, h2, rfl⟩
  · rintro ⟨s, i, h1, h2, h3⟩
    refine ⟨_, s, h1, _, i, h2, ?_⟩
    cases sp; simp_all

/-- What one run draws. -/
theorem drawRun_inv {draw : List (StratRow K) → Except PyErr (Drawn K)}
    {load : Int → String → Option (List (StratRow K))} {specs : List ColSpec}
    {cols : List (ColSpec × Drawn K)} (h : drawRun draw load specs = .ok cols) :
    ∀ sp d, (sp, d) ∈ cols ↔ sp ∈ specs ∧ ∃ sdf, load sp.seed sp.trap = some sdf ∧ draw sdf = .ok d := by
  unfold drawRun at h
  obtain ⟨cells, h1, h2⟩ := bind_ok_inv h
  injection h2 with h2
  obtain ⟨hlen, hall⟩ := mapM_ok_inv _ _ _ h1
  intro sp d
  rw [← h2, List.mem_filterMap]
  simp only [id]
  constructor
  · rintro ⟨_, hc, rfl⟩
    obtain ⟨i, hi⟩ := List.mem_iff_getElem?.1 hc
    have hil := (List.getElem?_eq_some_iff.1 hi).1
    obtain ⟨b, hb1, hb2⟩ := hall i _ (List.getElem?_eq_getElem (by omega))
    rw [hi] at hb1
    injection hb1 with hb1
    subst hb1
    unfold drawCell at hb2
    cases hl : load (specs[i]'(by omega)).seed (specs[i]'(by omega)).trap with
    | none => rw [hl] at hb2; cases hb2
    | some sdf =>
      rw [hl] at hb2
      obtain ⟨d', e1, e2⟩ := bind_ok_inv hb2
      injection e2 with e2
      injection e2 with e2
      injection e2 with e2 e3
      subst e2 e3
      exact ⟨List.getElem_mem _, sdf, hl, e1⟩
  · rintro ⟨hm, sdf, hl, hd⟩
    obtain ⟨i, hi⟩ := List.mem_iff_getElem?.1 hm
    obtain ⟨b, hb1, hb2⟩ := hall i _ hi
    unfold drawCell at hb2
    rw [hl] at hb2
    simp only [hd, bind, Except.bind] at hb2
    injection hb2 with hb2
    exact ⟨b, List.mem_of_getElem? hb1, hb2.symm⟩

theorem drawRun_error_iff (draw : List (StratRow K) → Except PyErr (Drawn K))
    (load : Int → String → Option (List (StratRow K))) (specs : List ColSpec) :
    (∃ e, drawRun draw load specs = .error e) ↔
      ∃ sp ∈ specs, ∃ sdf, load sp.seed sp.trap = some sdf ∧ ∃ e, draw sdf = .error e := by
  have key := mapM_error_iff (drawCell draw load) specs
  have h1 : (∃ e, drawRun draw load specs = .error e) ↔
      ∃ e, specs.mapM (drawCell draw load) = .error e := by
    unfold drawRun
    cases specs.mapM (drawCell draw load) with
    | error e => simp [bind, Except.bind]
    | ok cells => simp [bind, Except.bind]
  rw [h1, key]
  constructor
  · rintro ⟨sp, hsp, e, he⟩
    refine ⟨sp, hsp, ?_⟩
    unfold drawCell at he
    cases hl : load sp.seed sp.trap with
    | none => rw [hl] at he; cases he
    | some sdf =>
      refine ⟨sdf, rfl, ?_⟩
      rw [hl] at he
      cases hd : draw sdf with
      | error e' => exact ⟨e', rfl⟩
      | ok d => simp only [hd, bind, Except.bind] at he; cases he
  · rintro ⟨sp, hsp, sdf, hl, e, he⟩
    refine ⟨sp, hsp, e, ?_⟩
    unfold drawCell
    simp only [hl, he, bind, Except.bind]

/-- What the loop over runs draws. -/
theorem drawRuns_inv {draw : List (StratRow K) → Except PyErr (Drawn K)}
    {load : String → Int → String → Option (List (StratRow K))} {specs : List ColSpec} :
    ∀ {m : K} {runs : List String} {rows : List (RunRow K)}, drawRuns draw load specs m runs = .ok rows →
      rows.length = runs.length ∧ ∀ (r : Nat) run row, runs[r]? = some run → rows[r]? = some row →
        drawRun draw (load run) specs = .ok row.cols ∧
        ∃ m', ((r = 0 ∧ m' = m) ∨ ∃ q row', r = q + 1 ∧ rows[q]? = some row' ∧ m' = row'.limit) ∧
          row.limit = row.cols.foldl (fun m p => deeper m p.2) m'
  | m, [], rows, h => by
    injection h with h
    subst h
    exact ⟨rfl, fun r run row hr => by simp at hr⟩
  | m, run :: rest, rows, h => by
    unfold drawRuns at h
    obtain ⟨cols, h1, h2⟩ := bind_ok_inv h
    obtain ⟨rows', h3, h4⟩ := bind_ok_inv h2
    injection h4 with h4
    subst h4
    obtain ⟨ih1, ih2⟩ := drawRuns_inv h3
    refine ⟨by simp [ih1], ?_⟩
    intro r run' row hr hrow
    cases r with
    | zero =>
      simp only [List.getElem?_cons_zero, Option.some.injEq] at hr hrow
      subst hr hrow
      exact ⟨h1, m, Or.inl ⟨rfl, rfl⟩, rfl⟩
    | succ r =>
      simp only [List.getElem?_cons_succ] at hr hrow
      obtain ⟨a1, m', a2, a3⟩ := ih2 r run' row hr hrow
      refine ⟨a1, m', Or.inr ?_, a3⟩
      rcases a2 with ⟨rfl, rfl⟩ | ⟨q, row', rfl, a4, rfl⟩
      · exact ⟨0, _, rfl, rfl, rfl⟩
      · exact ⟨q + 1, row', rfl, by simpa using a4, rfl⟩

theorem drawRuns_error_iff (draw : List (StratRow K) → Except PyErr (Drawn K))
    (load : String → Int → String → Option (List (StratRow K))) (specs : List ColSpec) :
    ∀ (m : K) (runs : List String), (∃ e, drawRuns draw load specs m runs = .error e) ↔
      ∃ run ∈ runs, ∃ sp ∈ specs, ∃ sdf, load run sp.seed sp.trap = some sdf ∧ ∃ e, draw sdf = .error e
  | m, [] => by
    constructor
    · rintro ⟨e, h⟩; cases h
    · rintro ⟨run, h, -⟩; cases h
  | m, run :: rest => by
    unfold drawRuns
    simp only [List.mem_cons, exists_eq_or_imp]
    rw [← drawRun_error_iff draw (load run) specs]
    cases hd : drawRun draw (load run) specs with
    | error e => simp [bind, Except.bind]
    | ok cols =>
      simp only [bind, Except.bind, reduceCtorEq, exists_false, false_or]
      rw [← drawRuns_error_iff draw load specs (cols.foldl (fun m p => deeper m p.2) m) rest]
      cases drawRuns draw load specs (cols.foldl (fun m p => deeper m p.2) m) rest with
      | error e => simp
      | ok rows => simp

/-- The figure is that of its rows. -/
theorem stratFigure_inv {draw : List (StratRow K) → Except PyErr (Drawn K)}
    {sortDepth : List (CleanRow K) → List (CleanRow K)}
    {load : String → Int → String → Option (List (StratRow K))} {runs : List String} {seeds : List Int}
    {traps : List String} {fig : StratFigure K}
    (h : stratFigure draw sortDepth load runs seeds traps = .ok fig) :
    seeds ≠ [] ∧ axisCols seeds.length traps.length ≠ 0 ∧
      drawRuns draw load (colSpecs seeds traps) 0 runs = .ok fig.rows ∧
      fig.axes = figAxes (axisCols seeds.length traps.length) fig.rows ∧
      fig.titles = (match fig.rows with
        | [] => []
        | r :: _ => r.cols.map fun p => (p.1.col, p.1.trap, p.2.age)) ∧
      fig.icepct = (runs.zip fig.rows).foldl (fun d rr => rr.2.cols.foldl (fun d p =>
        setPct (rr.1, p.1.seed, p.1.trap) ((sortDepth p.2.clean).map (·.icepct)) d) d) [] := by
  unfold stratFigure at h
  split at h
  · cases h
  · rename_i hn
    rw [not_or] at hn
    obtain ⟨rows, h1, h2⟩ := bind_ok_inv h
    injection h2 with h2
    subst h2
    exact ⟨by intro e; exact hn.1 (by simp [e]), hn.2, h1, rfl, rfl, rfl⟩

/-- The running maximum over some columns. -/
theorem foldl_deeper (cols : List (ColSpec × Drawn K)) : ∀ (m : K),
    m ≤ cols.foldl (fun m p => deeper m p.2) m ∧
    (∀ p ∈ cols, ∀ x, colDepth p.2 = some x → x ≤ cols.foldl (fun m p => deeper m p.2) m) ∧
    (cols.foldl (fun m p => deeper m p.2) m = m ∨
      ∃ p ∈ cols, colDepth p.2 = some (cols.foldl (fun m p => deeper m p.2) m)) := by
  induction cols with
  | nil => intro m; exact ⟨le_rfl, by simp, Or.inl rfl⟩
  | cons p l ih =>
    intro m
    obtain ⟨i1, i2, i3⟩ := ih (deeper m p.2)
    rw [List.foldl_cons]
    have hd : m ≤ deeper m p.2 ∧ (∀ x, colDepth p.2 = some x → x ≤ deeper m p.2) ∧
        (deeper m p.2 = m ∨ colDepth p.2 = some (deeper m p.2)) := by
      unfold deeper
      cases hc : colDepth p.2 with
      | none => exact ⟨le_rfl, by simp, Or.inl rfl⟩
      | some x =>
        simp only []
        split
        · rename_i hlt
          exact ⟨hlt.le, fun y hy => by injection hy with hy; exact hy.ge, Or.inr rfl⟩
        · rename_i hge
          exact ⟨le_rfl, fun y hy => by injection hy with hy; rw [← hy]; exact not_lt.1 hge, Or.inl rfl⟩
    refine ⟨hd.1.trans i1, ?_, ?_⟩
    · intro q hq x hx
      rcases List.mem_cons.1 hq with rfl | hq
      · exact (hd.2.1 x hx).trans i1
      · exact i2 q hq x hx
    · rcases i3 with e | ⟨q, hq, e⟩
      · rcases hd.2.2 with e' | e'
        · left; rw [e, e']
        · right; exact ⟨p, by simp, by rw [e, e']⟩
      · exact Or.inr ⟨q, by simp [hq], e⟩

theorem foldl_max_cons (x : K) (l : List K) : (∀ y ∈ x :: l, y ≤ l.foldl max x) ∧ l.foldl max x ∈ x :: l := by
  induction l generalizing x with
  | nil => simp
  | cons a l ih =>
    obtain ⟨i1, i2⟩ := ih (max x a)
    rw [List.foldl_cons]
    have hm := i1 (max x a) (by simp)
    constructor
    · intro y hy
      rcases List.mem_cons.1 hy with rfl | hy
      · exact (le_max_left _ _).trans hm
      · rcases List.mem_cons.1 hy with rfl | hy
        · exact (le_max_right _ _).trans hm
        · exact i1 y (List.mem_cons_of_mem _ hy)
    · rcases List.mem_cons.1 i2 with e | e
      · rw [e]
        rcases max_choice x a with h | h
        · rw [h]; exact List.mem_cons_self
        · rw [h]; exact List.mem_cons_of_mem _ List.mem_cons_self
      · simp [e]

/-- Depth of a column: the greatest of zero and the bases of the cleaned layers. -/
theorem colDepth_plot {hash : String → Int} {sortDepth : List (CleanRow K) → List (CleanRow K)}
    {sortDiam : SizeTable K → SizeTable K} (h1 : SortsBy (fun r => r.depth) sortDepth)
    {cdf : SizeTable K} {minThick : K} {sdf : List (StratRow K)} {d : Drawn K}
    (h : plotColumn hash sortDepth sortDiam cdf minThick sdf = .ok d) :
    (∀ c ∈ d.clean, ∃ x, colDepth d = some x ∧ c.depth ≤ x ∧ 0 ≤ x) ∧
    ∀ x, colDepth d = some x → x = 0 ∨ ∃ c ∈ d.clean, x = c.depth := by
  unfold plotColumn at h
  split at h
  · cases h
  obtain ⟨⟨marked, clean⟩, hc, h⟩ := bind_ok_inv h
  obtain ⟨strat, hs, h⟩ := bind_ok_inv h
  injection h with h
  subst h
  have hp := (h1 (clean ++ clean)).1
  unfold stratRanges at hs
  unfold colDepth
  simp only []
  cases hsd : sortDepth (clean ++ clean) with
  | nil =>
    rw [hsd] at hs hp
    injection hs with hs
    subst hs
    have hnil : clean = [] := (List.append_eq_nil_iff.1 (List.nil_perm.1 hp)).1
    subst hnil
    simp
  | cons r rs =>
    rw [hsd] at hs hp
    obtain ⟨key, -, hs⟩ := bind_ok_inv hs
    obtain ⟨hlen, hall⟩ := mapM_ok_inv _ _ _ hs
    have hdep : strat.map (·.depth) = 0 :: (r :: rs).map (·.depth) := by
      apply List.ext_getElem?
      intro i
      rw [List.getElem?_map]
      cases hz : ((((0 : K), some (0 : K)) :: (r :: rs).map (fun s => (s.depth, s.icepct))).zip
        ((r :: rs).map (·.label) ++ [(rs.getLastD r).label]))[i]? with
      | none =>
        rw [List.getElem?_eq_none_iff] at hz
        rw [List.getElem?_eq_none (by omega), List.getElem?_eq_none (by
          rw [List.length_zip] at hz; simp at hz ⊢; omega)]
        rfl
      | some c =>
        obtain ⟨b, hb, hfb⟩ := hall i c hz
        rw [hb]
        obtain ⟨src, -, hfb⟩ := bind_ok_inv hfb
        obtain ⟨ht, -, hfb⟩ := bind_ok_inv hfb
        injection hfb with hfb
        subst hfb
        have := (List.getElem?_zip_eq_some.1 hz).1
        have e : (0 :: (r :: rs).map (·.depth) : List K) =
          (((0 : K), some (0 : K)) :: (r :: rs).map (fun s => (s.depth, s.icepct))).map (·.1) := by
          simp
        rw [e, List.getElem?_map, this]
        rfl
    cases strat with
    | nil => simp at hdep
    | cons t ts =>
      simp only [List.map_cons, List.cons.injEq] at hdep
      obtain ⟨ht, hts⟩ := hdep
      simp only []
      unfold maxOf
      obtain ⟨m1, m2⟩ := foldl_max_cons t.depth (ts.map (·.depth))
      rw [show ts.map (·.depth) = (r :: rs).map (·.depth) from hts] at m1 m2 ⊢
      constructor
      · intro c hc'
        refine ⟨_, rfl, m1 _ (List.mem_cons_of_mem _ (List.mem_map.2 ⟨c, hp.mem_iff.2 (by simp [hc']), rfl⟩)), ?_⟩
        have := m1 _ (List.mem_cons_self)
        rw [ht] at this ⊢
        exact this
      · intro x hx
        injection hx with hx
        rw [hx] at m2
        rcases List.mem_cons.1 m2 with e | e
        · left; rw [e, ht]
        · obtain ⟨c, hc', e⟩ := List.mem_map.1 e
          have := hp.mem_iff.1 hc'
          simp at this
          exact Or.inr ⟨c, this, e.symm⟩

/-- The first axes of the figure: the colour bar, then those of the first row. -/
theorem figAxes_first (ncols : Nat) (row : RunRow K) (rows : List (RunRow K)) (i : Nat)
    (hi : i < ncols) : (figAxes ncols (row :: rows))[i + 1]? = some (.panel 0 i) := by
  unfold figAxes
  rw [List.getElem?_cons_succ, List.zipIdx_cons, List.flatMap_cons, List.append_assoc,
    List.getElem?_append_left (by simpa using hi)]
  simp [hi]

end MoonPIES
