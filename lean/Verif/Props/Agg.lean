import Verif.Lemmas.Agg
import Verif.Spec.Agg
import Verif.Props.Aggregate

/-!
# C80, C81: the aggregated tables and the renaming of runs
-/

namespace MoonPIES

open Spec

set_option linter.unusedSectionVars false

variable {K : Type} [Field K] [LinearOrder K] [IsStrictOrderedRing K]

/-- **C80** for one file that can be read: ice and depth have one entry per layer no older than the
trap, time has one per layer; the three columns describe the layers of the file exactly when no
layer is older than the `Formation age` row. -/
theorem C80_file (df : List (AggRow K)) (c : LayerCols K) (h : fileLayers df = .ok c) :
    ∃ f ∈ df, f.label = "Formation age" ∧ c.ice.length = c.depth.length ∧
      c.time = df.map (·.time) ∧
      (c.ice.length = c.time.length ↔ ∀ r ∈ df, r.time ≤ f.time) ∧
      ((∀ r ∈ df, r.time ≤ f.time) → c.ice.zip (c.depth.zip c.time) = layersOf [df]) := by
  unfold fileLayers at h
  split at h
  case h_2 => simp at h
  case h_1 f hf =>
    have hfm : f ∈ df.filter (fun r => decide (r.label = "Formation age")) := by rw [hf]; simp
    have hfm' := List.mem_filter.1 hfm
    split at h
    case h_1 hk =>
      have : f ∈ df.filter (fun r => decide (r.time ≤ f.time)) :=
        List.mem_filter.2 ⟨hfm'.1, by simp⟩
      rw [hk] at this
      simp at this
    case h_2 r rest hk =>
      rw [← hk] at h
      cases h
      refine ⟨f, hfm'.1, by simpa using hfm'.2, by simp, rfl, ?_, ?_⟩
      · simp only [List.length_map]
        constructor
        · intro hl x hx
          have := List.filter_eq_self.1 (List.filter_sublist.eq_of_length hl) x hx
          simpa using this
        · intro hall
          rw [List.filter_eq_self.2 (fun x hx => by simpa using hall x hx)]
      · intro hall
        rw [List.filter_eq_self.2 (fun x hx => by simpa using hall x hx)]
        simp only [layersOf, List.flatten_cons, List.flatten_nil, List.append_nil]
        rw [List.zip_map', List.zip_map']

/-- A file `agg_coldtrap` reads: the table of `make_strat_col` with `strat_after_age`, from steps
with decreasing times, non-negative amounts and no source called `Formation age`. -/
def RunFile [FloorRing K] (df : List (AggRow K)) : Prop :=
  ∃ (thickMin tol age : K) (steps : List (Step K)) (out : List (StratRow K)),
    (∀ s ∈ steps, 0 ≤ s.ice ∧ 0 ≤ s.ejecta) ∧ (steps.map (·.time)).Pairwise (· > ·) ∧
    (∀ s ∈ steps, s.src ≠ "Formation age") ∧
    makeStratCol thickMin tol true age steps = .ok out ∧ df = out.map StratRow.toAgg

theorem runFile_rows [FloorRing K] {df : List (AggRow K)} (h : RunFile df) :
    Layered df ∧ ∃ f, df.filter (fun r => decide (r.label = "Formation age")) = [f] ∧
      ∀ r ∈ df, r.time ≤ f.time := by
  obtain ⟨thickMin, tol, age, steps, out, hpos, hdec, hsrc, hout, rfl⟩ := h
  obtain ⟨r, layers, s0, rest, ho, _, hlab, _, _, htime, _, hl⟩ :=
    C24_time_order thickMin tol age steps hdec hsrc out hout
  refine ⟨layered_strat hpos hout, r.toAgg, ?_, ?_⟩
  · rw [ho, List.map_cons, List.filter_cons_of_pos (by exact decide_eq_true hlab)]
    rw [List.filter_eq_nil_iff.2]
    intro x hx
    obtain ⟨o, hom, rfl⟩ := List.mem_map.1 hx
    simp only [decide_eq_true_eq]
    exact (hl o hom).1
  · intro x hx
    obtain ⟨o, hom, rfl⟩ := List.mem_map.1 hx
    rw [ho] at hom
    rcases List.mem_cons.1 hom with rfl | hom
    · exact le_refl _
    · show o.time ≤ r.time
      rw [htime]
      exact (hl o hom).2.1

theorem runFile_layers [FloorRing K] {df : List (AggRow K)} (h : RunFile df) :
    fileLayers df = .ok ⟨df.map (·.ice), df.map (·.depth), df.map (·.time)⟩ := by
  obtain ⟨_, f, hf, hall⟩ := runFile_rows h
  have hself : df.filter (fun r => decide (r.time ≤ f.time)) = df :=
    List.filter_eq_self.2 (fun x hx => by simpa using hall x hx)
  unfold fileLayers
  rw [hf]
  simp only []
  rw [hself]
  cases df with
  | nil => simp at hf
  | cons r rest => rfl

theorem runFile_run [FloorRing K] {df : List (AggRow K)} (h : RunFile df) (depths : List K) :
    ∃ run : AggRun K, aggFile depths df = .ok (some run) ∧ run.total = (df.map (·.ice)).sum ∧
      (∀ r ∈ df, r.depth ≤ run.maxdepth) ∧ (∃ r ∈ df, r.depth = run.maxdepth) ∧
      run.upTo = depths.map (fun d => iceAbove d df) := by
  obtain ⟨hlay, f, hf, hall⟩ := runFile_rows h
  obtain ⟨run, hrun⟩ : ∃ run, aggFile depths df = .ok (some run) := by
    by_contra hno
    have h1 := (C70_reads depths df).2.2 hno
    unfold aggFile at h1
    rw [hf] at h1
    simp only [] at h1
    split at h1 <;> cases h1
  obtain ⟨g, hg, hgl, ⟨kept, hk, ht, hm, hx, hu⟩, _⟩ := C70_file depths df hlay run hrun
  have hgf : g = f := by
    have : g ∈ df.filter (fun r => decide (r.label = "Formation age")) :=
      List.mem_filter.2 ⟨hg, by simpa using hgl⟩
    rw [hf] at this
    simpa using this
  subst hgf
  rw [List.filter_eq_self.2 (fun x hx => by simpa using hall x hx)] at hk
  subst hk
  exact ⟨run, hrun, ht, hm, hx, hu⟩

theorem dirLayers_run [FloorRing K] (files : List (List (AggRow K)))
    (h : ∀ df ∈ files, RunFile df) : ∀ acc : LayerCols K, dirLayers files acc =
      .ok ⟨acc.ice ++ files.flatten.map (·.ice), acc.depth ++ files.flatten.map (·.depth),
        acc.time ++ files.flatten.map (·.time)⟩ := by
  induction files with
  | nil => intro acc; simp [dirLayers]
  | cons df rest ih =>
    intro acc
    unfold dirLayers
    rw [runFile_layers (h df List.mem_cons_self)]
    simp only []
    rw [ih (fun d hd => h d (List.mem_cons_of_mem _ hd))]
    simp

/-- What the entries of `cruns` say about a file. -/
def RunOf (depths : List K) (df : List (AggRow K)) (run : AggRun K) : Prop :=
  run.total = (df.map (·.ice)).sum ∧ (∀ r ∈ df, r.depth ≤ run.maxdepth) ∧
    (∃ r ∈ df, r.depth = run.maxdepth) ∧ run.upTo = depths.map (fun d => iceAbove d df)

theorem dirRuns_run [FloorRing K] (depths : List K) (files : List (List (AggRow K)))
    (h : ∀ df ∈ files, RunFile df) :
    ∃ l, dirRuns depths files = .ok l ∧ List.Forall₂ (RunOf depths) files l := by
  induction files with
  | nil => exact ⟨[], rfl, List.Forall₂.nil⟩
  | cons df rest ih =>
    obtain ⟨l, hl, hf⟩ := ih (fun d hd => h d (List.mem_cons_of_mem _ hd))
    obtain ⟨run, hrun, hspec⟩ := runFile_run (h df List.mem_cons_self) depths
    refine ⟨run :: l, ?_, List.Forall₂.cons hspec hf⟩
    unfold dirRuns
    rw [hrun]
    simp only []
    rw [hl]
    rfl

theorem aggColdtrap_run [FloorRing K] (depths : List (String × K))
    (dirs : List (String × List (List (AggRow K))))
    (h : ∀ d ∈ dirs, ∀ df ∈ d.2, RunFile df) :
    ∃ data, aggColdtrap depths dirs = .ok data ∧
      data.layers.map (·.1) = dirs.map (·.1) ∧ data.runs.map (·.1) = dirs.map (·.1) ∧
      ∀ d ∈ dirs,
        (d.1, [("ice", d.2.flatten.map (·.ice)), ("depth", d.2.flatten.map (·.depth)),
          ("time", d.2.flatten.map (·.time))]) ∈ data.layers ∧
        ∃ l, List.Forall₂ (RunOf (depths.map (·.2))) d.2 l ∧
          (d.1, runStats depths l) ∈ data.runs := by
  induction dirs with
  | nil => exact ⟨⟨[], []⟩, rfl, rfl, rfl, by simp⟩
  | cons d rest ih =>
    obtain ⟨name, files⟩ := d
    obtain ⟨data, hd, hl, hr, hall⟩ := ih (fun d hd => h d (List.mem_cons_of_mem _ hd))
    have hfiles : ∀ df ∈ files, RunFile df := h _ List.mem_cons_self
    obtain ⟨l, hl1, hl2⟩ := dirRuns_run (depths.map (·.2)) files hfiles
    have hc := dirLayers_run files hfiles ⟨[], [], []⟩
    refine ⟨_, by unfold aggColdtrap; rw [hc, hl1, hd], by simp [hl], by simp [hr], ?_⟩
    intro d hdm
    rcases List.mem_cons.1 hdm with rfl | hdm
    · exact ⟨by simp [layerStats], l, hl2, List.mem_cons_self⟩
    · obtain ⟨h1, l', h2, h3⟩ := hall d hdm
      exact ⟨List.mem_cons_of_mem _ h1, l', h2, List.mem_cons_of_mem _ h3⟩

theorem aggColdtrap_layer_keys (depths : List (String × K)) :
    ∀ (dirs : List (String × List (List (AggRow K)))) (data : AggData K),
      aggColdtrap depths dirs = .ok data →
      (∀ r ∈ data.layers, (r.2.map (·.1)).Nodup) := by
  intro dirs
  induction dirs with
  | nil => intro data h; cases h; simp
  | cons d rest ih =>
    intro data h
    obtain ⟨name, files⟩ := d
    unfold aggColdtrap at h
    split at h <;> cases h
    rename_i c r d _ _ hd
    intro x hx
    rcases List.mem_cons.1 hx with rfl | hx
    · simp [layerStats]
    · exact ih d hd x hx

theorem aggColdtrap_run_keys (depths : List (String × K)) :
    ∀ (dirs : List (String × List (List (AggRow K)))) (data : AggData K),
      aggColdtrap depths dirs = .ok data →
      (∀ r ∈ data.runs, (r.2.map (·.1)).Nodup) := by
  intro dirs
  induction dirs with
  | nil => intro data h; cases h; simp
  | cons d rest ih =>
    intro data h
    obtain ⟨name, files⟩ := d
    unfold aggColdtrap at h
    split at h <;> cases h
    rename_i c r d _ _ hd
    intro x hx
    rcases List.mem_cons.1 hx with rfl | hx
    · exact runStats_nodup depths _
    · exact ih d hd x hx

/-- **C80** aggregation into a fresh directory of the tables runs write.  In the flattened layers
table the rows of a cold trap and a run directory are the layers of its files, each once, in file
order, with their own ice, depth and time; in the runs table entry `i` of each column is the total
ice, the greatest depth and the ice above a depth of file `i`. -/
theorem C80_tables_partial [FloorRing K] (depths : List (String × K))
    (hd : (depths.map (·.1)).Nodup) (traps : List String)
    (dirs : String → List (String × List (List (AggRow K))))
    (hnames : ∀ t ∈ traps, ((dirs t).map (·.1)).Nodup)
    (hfiles : ∀ t ∈ traps, ∀ d ∈ dirs t, ∀ df ∈ d.2, RunFile df)
    (pickles : List (String × AggData K))
    (hp : pickles = aggregateAll (fun t => aggColdtrap depths (dirs t)) traps [])
    (t : String) (ht : t ∈ traps) (name : String) (files : List (List (AggRow K)))
    (hdir : (name, files) ∈ dirs t) :
    (∀ pairs : List (String × String), pairs.Nodup → (t, name) ∈ pairs →
      (flattenAgg ["ice", "depth", "time"] pairs (layersTable pickles)).filter
        (fun r => decide (r.coldtrap = t ∧ r.runs = name)) =
      (layersOf files).map (fun x => ⟨t, name, [some x.1, some x.2.1, some x.2.2]⟩)) ∧
    kget (runsTable pickles) (t, name, "total ice") =
      some (files.map (fun df => (df.map (·.ice)).sum)) ∧
    (∃ col, kget (runsTable pickles) (t, name, "maxdepth") = some col ∧
      List.Forall₂ (fun df x => (∀ r ∈ df, r.depth ≤ x) ∧ ∃ r ∈ df, r.depth = x) files col) ∧
    (∀ d ∈ depths, kget (runsTable pickles) (t, name, "total ice " ++ d.1 ++ "m") =
      some (files.map (fun df => iceAbove d.2 df))) := by
  have hinv : ∀ p ∈ pickles, p.1 ∈ traps ∧ aggColdtrap depths (dirs p.1) = .ok p.2 := by
    intro p hpm
    have hk := kget_of_mem (hp ▸ aggregateAll_nodup _ traps [] (by simp)) hpm
    rw [hp, kget_aggregateAll] at hk
    split at hk
    · rename_i hm
      refine ⟨hm, ?_⟩
      split at hk
      · rename_i d hc
        rw [hc, Option.some.inj hk]
      · simp [kget] at hk
    · simp [kget] at hk
  have hkeys : (pickles.map (·.1)).Nodup := hp ▸ aggregateAll_nodup _ traps [] (by simp)
  have hlay : ∀ p ∈ pickles, (p.2.layers.map (·.1)).Nodup ∧
      ∀ r ∈ p.2.layers, (r.2.map (·.1)).Nodup := by
    intro p hpm
    obtain ⟨hm, hc⟩ := hinv p hpm
    refine ⟨?_, aggColdtrap_layer_keys depths (dirs p.1) p.2 hc⟩
    obtain ⟨data, h1, h2, _⟩ := aggColdtrap_run depths (dirs p.1) (hfiles p.1 hm)
    rw [hc] at h1
    cases h1
    rw [h2]
    exact hnames p.1 hm
  have hrun : ∀ p ∈ pickles, (p.2.runs.map (·.1)).Nodup ∧
      ∀ r ∈ p.2.runs, (r.2.map (·.1)).Nodup := by
    intro p hpm
    obtain ⟨hm, hc⟩ := hinv p hpm
    refine ⟨?_, aggColdtrap_run_keys depths (dirs p.1) p.2 hc⟩
    obtain ⟨data, h1, _, h2, _⟩ := aggColdtrap_run depths (dirs p.1) (hfiles p.1 hm)
    rw [hc] at h1
    cases h1
    rw [h2]
    exact hnames p.1 hm
  obtain ⟨data, hdata, _, _, hall⟩ := aggColdtrap_run depths (dirs t) (hfiles t ht)
  have hmem : (t, data) ∈ pickles := by
    apply mem_of_kget
    rw [hp, kget_aggregateAll, if_pos ht, hdata]
  obtain ⟨hl, l, hf2, hr⟩ := hall _ hdir
  simp only [] at hl hf2 hr
  have hcol := fun (s : String) (col : List K) (hs : (s, col) ∈ _) =>
    kget_pickles (fun d : AggData K => d.layers) pickles hkeys hlay hmem hl (s := s) (col := col) hs
  have hcolr := fun (s : String) (col : List K) (hs : (s, col) ∈ _) =>
    kget_pickles (fun d : AggData K => d.runs) pickles hkeys hrun hmem hr (s := s) (col := col) hs
  refine ⟨?_, ?_, ?_, ?_⟩
  · intro pairs hpn hpm
    have c1 := hcol "ice" (files.flatten.map (·.ice)) (by simp)
    have c2 := hcol "depth" (files.flatten.map (·.depth)) (by simp)
    have c3 := hcol "time" (files.flatten.map (·.time)) (by simp)
    have hfl := flatten_pair ["ice", "depth", "time"] (by simp) pairs hpn (layersTable pickles)
      t name hpm files.flatten.length (by
        intro s hs
        simp only [List.mem_cons, List.not_mem_nil, or_false] at hs
        rcases hs with rfl | rfl | rfl
        · exact ⟨_, c1, List.length_map _⟩
        · exact ⟨_, c2, List.length_map _⟩
        · exact ⟨_, c3, List.length_map _⟩)
    rw [hfl]
    apply List.ext_getElem?
    intro j
    unfold layersOf
    rw [List.map_map, List.getElem?_map, List.getElem?_map]
    by_cases hj : j < files.flatten.length
    · rw [List.getElem?_range hj, List.getElem?_eq_getElem hj]
      have e1 : cell (layersTable pickles) (t, name, "ice") j = some (files.flatten[j]).ice := by
        unfold cell layersTable; rw [c1]
        simp only [Option.bind_some, List.getElem?_map, List.getElem?_eq_getElem hj, Option.map_some]
      have e2 : cell (layersTable pickles) (t, name, "depth") j =
          some (files.flatten[j]).depth := by
        unfold cell layersTable; rw [c2]
        simp only [Option.bind_some, List.getElem?_map, List.getElem?_eq_getElem hj, Option.map_some]
      have e3 : cell (layersTable pickles) (t, name, "time") j =
          some (files.flatten[j]).time := by
        unfold cell layersTable; rw [c3]
        simp only [Option.bind_some, List.getElem?_map, List.getElem?_eq_getElem hj, Option.map_some]
      simp [e1, e2, e3]
    · rw [List.getElem?_eq_none (by simpa using hj),
        List.getElem?_eq_none (l := files.flatten) (by omega)]
      rfl
  · have h1 := hcolr "total ice" _ (runStats_total depths l)
    have h2 : l.map (·.total) = files.map (fun df => (df.map (·.ice)).sum) := by
      clear * - hf2
      induction hf2 with
      | nil => rfl
      | cons h _ ih => rw [List.map_cons, List.map_cons, h.1, ih]
    rw [h2] at h1
    exact h1
  · refine ⟨_, hcolr "maxdepth" _ (runStats_maxdepth depths l), ?_⟩
    rw [List.forall₂_map_right_iff]
    exact hf2.imp (fun _ _ h => ⟨h.2.1, h.2.2.1⟩)
  · intro d hdm
    obtain ⟨i, hi⟩ := List.getElem?_of_mem hdm
    have h1 := hcolr _ _ (runStats_depth depths hd l i d hi)
    have h2 : l.map (fun r => (r.upTo[i]?).getD 0) = files.map (fun df => iceAbove d.2 df) := by
      clear * - hf2 hi
      induction hf2 with
      | nil => rfl
      | cons h _ ih =>
        rw [List.map_cons, List.map_cons, h.2.2.2, ih]
        simp [hi]
    rw [h2] at h1
    exact h1

/-- **C80** a file with one row older than the trap: from that row on the times belong to other
layers, here the ice of 3 at depth 3 of the second file is listed with the time 4 of the first. -/
theorem C80_mixes_rows : ∃ (files : List (List (AggRow ℚ))) (c : LayerCols ℚ),
    dirLayers files ⟨[], [], []⟩ = .ok c ∧ c.ice.length ≠ c.time.length ∧
    (3, 3, 4) ∈ c.ice.zip (c.depth.zip c.time) ∧ (3, 3, 4) ∉ layersOf files :=
  ⟨[[⟨1, 6, 2, "old"⟩, ⟨0, 5, 1, "Formation age"⟩, ⟨1, 4, 1, "Ice"⟩],
    [⟨3, 2, 3, "Formation age"⟩]], ⟨[0, 1, 3], [1, 1, 3], [6, 5, 4, 2]⟩,
    by decide +kernel, by decide +kernel, by decide +kernel, by decide +kernel⟩

/-- **C80** the exit code of a process is not looked at: a cold trap whose aggregation raises keeps
the pickle of an earlier aggregation, and one that is not asked for is still in the tables. -/
theorem C80_stale (compute : String → Except PyErr (AggData K)) (traps : List String)
    (pickles : List (String × AggData K)) (t : String) (old : AggData K)
    (hold : kget pickles t = some old) (h : t ∉ traps ∨ ∃ e, compute t = .error e) :
    kget (aggregateAll compute traps pickles) t = some old := by
  rw [kget_aggregateAll]
  split
  · rename_i hm
    rcases h with h | ⟨e, he⟩
    · exact absurd hm h
    · rw [he]; exact hold
  · exact hold

/-- Non-vacuity: the second cold trap fails and keeps its old pickle, the third was not asked for. -/
example : aggregateAll (fun t => if t = "Faustini" then .ok ⟨[("r", [])], []⟩ else .error .typeError)
    ["Faustini", "Haworth"] [("Haworth", ⟨[("old", [])], []⟩), ("Cabeus", ⟨[], [("old", [])]⟩)] =
    ([("Haworth", ⟨[("old", [])], []⟩), ("Cabeus", ⟨[], [("old", [])]⟩),
      ("Faustini", ⟨[("r", [])], []⟩)] : List (String × AggData ℚ)) := by decide +kernel

/-- **C81** what `rename_runs` does for lists of the same length and different run names: every
kept row has its new name, in the order of the table, exactly when no new name is a later run name
that itself changes. -/
theorem C81_exact_partial (names news : List String) (hn : names.Nodup)
    (hlen : names.length = news.length) :
    (∀ (df : List (String × Nat)), List.Forall₂
        (fun r r' => RenamedTo names news r.1 r'.1 ∧ r'.2 = r.2)
        (df.filter (fun r => r.1 ∈ names)) (renameRuns names news df)) ↔
      ∀ (i j : Nat) (x y : String), i < j → news[i]? = some x → names[j]? = some x →
        news[j]? = some y → y = x := by
  have hzip : ∀ (i : Nat) x y, names[i]? = some x → news[i]? = some y →
      ∃ a b, names.zip news = a ++ (x, y) :: b ∧ a.length = i := by
    intro i x y h1 h2
    have hz : (names.zip news)[i]? = some (x, y) := by
      rw [List.getElem?_zip_eq_some]; exact ⟨h1, h2⟩
    obtain ⟨hi, he⟩ := List.getElem?_eq_some_iff.1 hz
    refine ⟨(names.zip news).take i, (names.zip news).drop (i + 1), ?_, by
      rw [List.length_take]; omega⟩
    rw [← he, List.getElem_cons_drop, List.take_append_drop]
  have huniq : ∀ (i j : Nat) x, names[i]? = some x → names[j]? = some x → i = j := by
    intro i j x h1 h2
    obtain ⟨hi, _⟩ := List.getElem?_eq_some_iff.1 h1
    exact (List.getElem?_inj hi hn).1 (h1.trans h2.symm)
  have hfst : ∀ (k : Nat) p, (names.zip news)[k]? = some p → names[k]? = some p.1 := by
    intro k p h
    exact (List.getElem?_zip_eq_some.1 h).1
  -- before its position a run name is not touched
  have hpre : ∀ (i : Nat) x y a b, names[i]? = some x → names.zip news = a ++ (x, y) :: b →
      a.length = i → renameOne (names.zip news) x = renameOne b y := by
    intro i x y a b hx hab hai
    rw [hab, renameOne_append, renameOne_not (x := x)]
    · show renameOne b (if x = x then y else x) = _
      rw [if_pos rfl]
    · intro p hp e
      obtain ⟨k, hk⟩ := List.getElem?_of_mem hp
      have hka : k < a.length := (List.getElem?_eq_some_iff.1 hk).1
      have := hfst k p (by rw [hab, List.getElem?_append_left hka]; exact hk)
      rw [e] at this
      have := huniq k i x this hx
      omega
  constructor
  · intro hall i j x y hij h1 h2 h3
    obtain ⟨o, ho⟩ : ∃ o, names[i]? = some o := by
      have : i < news.length := (List.getElem?_eq_some_iff.1 h1).1
      exact ⟨_, List.getElem?_eq_getElem (by omega)⟩
    have hone : ∀ (k : Nat) u v, names[k]? = some u → news[k]? = some v →
        renameOne (names.zip news) u = v := by
      intro k u v hu hv
      have hm : u ∈ names := List.mem_of_getElem? hu
      have := hall [(u, 0)]
      rw [renameRuns_eq] at this
      simp only [List.filter_cons, List.filter_nil, hm, decide_true, if_true, List.map_cons,
        List.map_nil, List.forall₂_cons, List.forall₂_nil_left_iff, and_true] at this
      obtain ⟨m, hm1, hm2⟩ := this
      rw [huniq m k u hm1 hu, hv] at hm2
      exact (Option.some.inj hm2).symm
    obtain ⟨a, b, hab, hai⟩ := hzip j x y h2 h3
    have e1 := hone i o x ho h1
    have e2 := hone j x y h2 h3
    have e3 := hpre j x y a b h2 hab hai
    obtain ⟨a', b', hab', hai'⟩ := hzip i o x ho h1
    have e4 := hpre i o x a' b' ho hab' hai'
    -- from position `i` on the name is `x`, so position `j` renames both alike
    have hb' : b' = (names.zip news).drop (i + 1) := by
      rw [hab', ← hai']; simp
    obtain ⟨c, hc⟩ : ∃ c, b' = c ++ (x, y) :: b ∧ c.length = j - (i + 1) := by
      refine ⟨a.drop (i + 1), ?_, by rw [List.length_drop]; omega⟩
      rw [hb', hab, List.drop_append_of_le_length (by omega)]
    have hcx : renameOne c x = x := by
      apply renameOne_not
      intro p hp e
      obtain ⟨k, hk⟩ := List.getElem?_of_mem hp
      have hkc : k < c.length := (List.getElem?_eq_some_iff.1 hk).1
      have hz : (names.zip news)[i + 1 + k]? = some p := by
        rw [← List.getElem?_drop, ← hb', hc.1, List.getElem?_append_left hkc]; exact hk
      have h' := hfst _ p hz
      rw [e] at h'
      have := huniq _ j x h' h2
      omega
    rw [hc.1, renameOne_append, hcx] at e4
    have e5 : renameOne ((x, y) :: b) x = renameOne b y := by
      show renameOne b (if x = x then y else x) = _
      rw [if_pos rfl]
    rw [← e2, e3, ← e5, ← e4, e1]
  · intro hcond df
    rw [renameRuns_eq, List.forall₂_map_right_iff, List.forall₂_same]
    intro r hr
    refine ⟨?_, rfl⟩
    have hm : r.1 ∈ names := by simpa using (List.mem_filter.1 hr).2
    obtain ⟨i, hi⟩ := List.getElem?_of_mem hm
    obtain ⟨v, hv⟩ : ∃ v, news[i]? = some v := by
      have : i < names.length := (List.getElem?_eq_some_iff.1 hi).1
      exact ⟨_, List.getElem?_eq_getElem (by omega)⟩
    refine ⟨i, hi, ?_⟩
    obtain ⟨a, b, hab, hai⟩ := hzip i r.1 v hi hv
    show news[i]? = some (renameOne (names.zip news) r.1)
    rw [hpre i r.1 v a b hi hab hai, hv]
    congr 1
    have hstay : ∀ p ∈ b, p.1 = v → p.2 = v := by
      intro p hp e
      obtain ⟨k, hk⟩ := List.getElem?_of_mem hp
      have hz : (names.zip news)[i + 1 + k]? = some p := by
        rw [hab, List.getElem?_append_right (by omega), hai]
        have : i + 1 + k - i = k + 1 := by omega
        rw [this, List.getElem?_cons_succ]; exact hk
      obtain ⟨hz1, hz2⟩ := List.getElem?_zip_eq_some.1 hz
      rw [e] at hz1
      exact hcond i (i + 1 + k) v p.2 (by omega) hv hz1 hz2
    clear * - hstay
    induction b with
    | nil => rfl
    | cons p rest ih =>
      show v = renameOne rest (if v = p.1 then p.2 else v)
      have hif : (if v = p.1 then p.2 else v) = v := by
        split
        · rename_i e; exact hstay p List.mem_cons_self e.symm
        · rfl
      rw [hif]
      exact ih (fun q hq => hstay q (List.mem_cons_of_mem _ hq))

/-- **C81** exchanging two names gives both runs the same name. -/
theorem C81_swap_fails : ∃ (names news : List String) (df : List (String × Nat)),
    names.Nodup ∧ news.Nodup ∧ names.length = news.length ∧
    renameRuns names news df = [("a", 1), ("a", 2)] ∧ df = [("a", 1), ("b", 2)] ∧
    RenamedTo names news "a" "b" :=
  ⟨["a", "b"], ["b", "a"], [("a", 1), ("b", 2)], by decide, by decide, rfl, by decide +kernel, rfl,
    0, rfl, rfl⟩

/-- **C81** with too few new names the last runs are kept under their old name. -/
theorem C81_short_fails : renameRuns ["a", "b"] ["x"] [("a", 1), ("b", 2), ("c", 3)] =
    [("x", 1), ("b", 2)] := by decide +kernel

/-- Non-vacuity of `C80_tables_partial`: a run file with two layers besides the formation row. -/
example : RunFile (K := ℚ) [⟨0, 4, 7, "Formation age"⟩, ⟨2, 4, 7, "Ice"⟩, ⟨1, 3, 5, "A"⟩,
    ⟨3, 2, 3, "Ice"⟩] :=
  ⟨1 / 10, 0, 5, [⟨4, 2, 0, ""⟩, ⟨3, 1, 1, "A"⟩, ⟨2, 3, 0, ""⟩],
    [⟨0, 0, "Formation age", 4, 7, none⟩, ⟨2, 0, "Ice", 4, 7, some 100⟩,
      ⟨1, 1, "A", 3, 5, some 50⟩, ⟨3, 0, "Ice", 2, 3, some 100⟩],
    by decide +kernel, by decide +kernel, by decide +kernel, by decide +kernel,
    by decide +kernel⟩

/-- Non-vacuity of `C81_exact_partial`: usual names. -/
example : renameRuns ["mpies", "no_bsed"] ["MoonPIES", "No sedimentation"]
    [("mpies", 1), ("cannon", 2), ("no_bsed", 3), ("mpies", 4)] =
    [("MoonPIES", 1), ("No sedimentation", 3), ("MoonPIES", 4)] := by decide +kernel

end MoonPIES
