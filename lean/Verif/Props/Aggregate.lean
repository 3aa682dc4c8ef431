import Verif.Lemmas.Aggregate
import Verif.Props.Strat

/-!
# C70: ice above a depth
-/

namespace MoonPIES

open Spec

set_option linter.unusedSectionVars false

variable {K : Type} [Field K] [LinearOrder K] [IsStrictOrderedRing K]

/-- **C70** on layers that do not overlap, `total ice d m` is the ice above depth `d`. -/
theorem C70_exact (rows : List (AggRow K)) (h : Layered rows) (d : K) :
    totalIceTo d rows = iceAbove d rows := totalIceTo_eq h d

/-- **C70** for every file that is not skipped: with `kept` the layers no older than the trap,
every entry is the ice of `kept` above that depth; the entries are monotone in the depth, between 0
and the recorded total, and equal to it from the recorded maximum depth on. -/
theorem C70_file (depths : List K) (df : List (AggRow K)) (hl : Layered df) (run : AggRun K)
    (h : aggFile depths df = .ok (some run)) :
    ∃ f ∈ df, f.label = "Formation age" ∧
      (∃ kept, kept = df.filter (fun r => decide (r.time ≤ f.time)) ∧
        run.total = (kept.map (·.ice)).sum ∧
        (∀ r ∈ kept, r.depth ≤ run.maxdepth) ∧ (∃ r ∈ kept, r.depth = run.maxdepth) ∧
        run.upTo = depths.map (fun d => iceAbove d kept)) ∧
      run.upTo.length = depths.length ∧
      (∀ (i j : Nat) d d' x x', depths[i]? = some d → depths[j]? = some d' →
        run.upTo[i]? = some x → run.upTo[j]? = some x' → d ≤ d' → x ≤ x') ∧
      (∀ x ∈ run.upTo, 0 ≤ x ∧ x ≤ run.total) ∧
      (∀ (i : Nat) d x, depths[i]? = some d → run.upTo[i]? = some x → run.maxdepth ≤ d →
        x = run.total) := by
  unfold aggFile at h
  split at h
  case h_2 => simp at h
  case h_1 f hf =>
    have hfm : f ∈ df.filter (fun r => decide (r.label = "Formation age")) := by rw [hf]; simp
    have hfm' := List.mem_filter.1 hfm
    split at h
    case h_1 => simp at h
    case h_2 r rest hk =>
      obtain ⟨kept, hkept⟩ : ∃ k, k = r :: rest := ⟨_, rfl⟩
      have hk' : df.filter (fun r => decide (r.time ≤ f.time)) = kept := by rw [hk, hkept]
      have hsub : kept.Sublist df := by rw [← hk']; exact List.filter_sublist
      have hlk : Layered kept :=
        ⟨hl.order.sublist hsub, fun x hx => hl.nonneg x (hsub.subset hx)⟩
      have hmax := maxOf_spec (rest.map (·.depth)) r.depth
      simp only [Except.ok.injEq, Option.some.injEq] at h
      have hup : run.upTo = depths.map (fun d => iceAbove d kept) := by
        rw [← h]; simp only []
        apply List.map_congr_left
        intro d _
        rw [← hkept]; exact totalIceTo_eq hlk d
      have htot : run.total = (kept.map (·.ice)).sum := by rw [← h, hkept]
      have hmd : ∀ r ∈ kept, r.depth ≤ run.maxdepth := by
        rw [← h, hkept]
        intro x hx
        apply hmax.1
        have := List.mem_map_of_mem (f := fun r : AggRow K => r.depth) hx
        simpa using this
      refine ⟨f, hfm'.1, by simpa using hfm'.2, ⟨kept, hk'.symm, htot, hmd, ?_, hup⟩, ?_, ?_, ?_, ?_⟩
      · have h2 : run.maxdepth ∈ (kept.map (·.depth)) := by
          rw [← h, hkept]; simpa using hmax.2
        obtain ⟨x, hx, hxe⟩ := List.mem_map.1 h2
        exact ⟨x, hx, hxe⟩
      · rw [hup, List.length_map]
      · intro i j d d' x x' hi hj hx hx' hdd
        rw [hup, List.getElem?_map, hi] at hx
        rw [hup, List.getElem?_map, hj] at hx'
        simp only [Option.map_some, Option.some.injEq] at hx hx'
        rw [← hx, ← hx']
        exact iceAbove_mono hdd
      · intro x hx
        rw [hup] at hx
        obtain ⟨d, _, rfl⟩ := List.mem_map.1 hx
        rw [htot]
        exact ⟨iceAbove_nonneg _ _, iceAbove_le_total hlk.nonneg d⟩
      · intro i d x hi hx hd
        rw [hup, List.getElem?_map, hi] at hx
        simp only [Option.map_some, Option.some.injEq] at hx
        rw [← hx, htot]
        exact iceAbove_full hlk.nonneg (fun r hr => (hmd r hr).trans hd)

/-- **C70** a file is read without error exactly when one row is labelled `Formation age`, and it
is then never skipped. -/
theorem C70_reads (depths : List K) (df : List (AggRow K)) :
    ((∃ run, aggFile depths df = .ok (some run)) ↔
      ∃ f pre post, df = pre ++ f :: post ∧ f.label = "Formation age" ∧
        ∀ r ∈ pre ++ post, r.label ≠ "Formation age") ∧
    aggFile depths df ≠ .ok none ∧
    ((¬ ∃ run, aggFile depths df = .ok (some run)) → aggFile depths df = .error .typeError) := by
  have hne : ∀ f, df.filter (fun r => decide (r.label = "Formation age")) = [f] →
      ∃ r rest, df.filter (fun r => decide (r.time ≤ f.time)) = r :: rest := by
    intro f hf
    have hfm : f ∈ df.filter (fun r => decide (r.label = "Formation age")) := by rw [hf]; simp
    have : f ∈ df.filter (fun r => decide (r.time ≤ f.time)) :=
      List.mem_filter.2 ⟨(List.mem_filter.1 hfm).1, by simp⟩
    cases hx : df.filter (fun r => decide (r.time ≤ f.time)) with
    | nil => rw [hx] at this; simp at this
    | cons r rest => exact ⟨r, rest, rfl⟩
  have hok : (∃ run, aggFile depths df = .ok (some run)) ↔
      ∃ f, df.filter (fun r => decide (r.label = "Formation age")) = [f] := by
    unfold aggFile
    constructor
    · rintro ⟨run, h⟩
      split at h
      case h_2 => simp at h
      case h_1 f hf => exact ⟨f, hf⟩
    · rintro ⟨f, hf⟩
      obtain ⟨r, rest, hr⟩ := hne f hf
      rw [hf]
      simp only []
      rw [hr]
      exact ⟨_, rfl⟩
  refine ⟨?_, ?_, ?_⟩
  · rw [hok]
    constructor
    · rintro ⟨f, hf⟩
      obtain ⟨pre, post, h1, h2, h3, h4⟩ := List.filter_eq_cons_iff.1 hf
      refine ⟨f, pre, post, h1, by simpa using h3, ?_⟩
      intro r hr
      rcases List.mem_append.1 hr with hr | hr
      · simpa using h2 r hr
      · have := List.filter_eq_nil_iff.1 h4 r hr
        simpa using this
    · rintro ⟨f, pre, post, rfl, hlab, hno⟩
      refine ⟨f, ?_⟩
      rw [List.filter_append, List.filter_cons_of_pos (by simpa using hlab)]
      rw [List.filter_eq_nil_iff.2 (fun r hr => by simpa using hno r (by simp [hr])),
        List.filter_eq_nil_iff.2 (fun r hr => by simpa using hno r (by simp [hr]))]
      rfl
  · intro h
    unfold aggFile at h
    split at h
    case h_2 => simp at h
    case h_1 f hf =>
      obtain ⟨r, rest, hr⟩ := hne f hf
      rw [hr] at h
      simp at h
  · intro h
    rw [hok] at h
    unfold aggFile
    split
    case h_1 f hf => exact absurd ⟨f, hf⟩ h
    case h_2 => rfl

/-- The columns `agg_coldtrap` reads from the file of a stratigraphy table. -/
def StratRow.toAgg (r : StratRow K) : AggRow K :=
  { ice := r.ice, time := r.time, depth := r.depth, label := r.label }

/-- The tables of `make_strat_col` are layered. -/
theorem layered_strat [FloorRing K] {thickMin tol age : K} {saa : Bool} {steps : List (Step K)}
    (hpos : ∀ s ∈ steps, 0 ≤ s.ice ∧ 0 ≤ s.ejecta)
    {out : List (StratRow K)} (h : makeStratCol thickMin tol saa age steps = .ok out) :
    Layered (out.map StratRow.toAgg) := by
  have hn := strat_nonneg hpos h
  obtain ⟨_, _, hstep, _⟩ := C22_depth_cumulative thickMin tol age saa steps out h
  have hmono := C22_depth_monotone thickMin tol age saa steps hpos out h
  constructor
  · rw [List.pairwise_map, List.pairwise_iff_getElem]
    intro i j hi hj hij
    have h1 := List.getElem?_eq_getElem hi
    have h2 := List.getElem?_eq_getElem hj
    have hi' : i + 1 < out.length := by omega
    have h3 := List.getElem?_eq_getElem hi'
    have e1 := hstep i _ _ h1 h3
    have e2 := (hmono (i + 1) j _ _ hij h3 h2).2
    have e3 := (hn _ (List.getElem_mem hi)).2
    simp only [StratRow.toAgg]
    linarith
  · intro r hr
    obtain ⟨o, ho, rfl⟩ := List.mem_map.1 hr
    exact (hn o ho).1

/-- **C70** the tables a run writes: with times that decrease and no source called
`Formation age`, the file is read, no layer is left out, `total ice` is all the ice of the table,
`maxdepth` its whole thickness, and `total ice d m` the ice above `d`. -/
theorem C70_run_tables [FloorRing K] (thickMin tol age : K) (steps : List (Step K))
    (hpos : ∀ s ∈ steps, 0 ≤ s.ice ∧ 0 ≤ s.ejecta)
    (hdec : (steps.map (·.time)).Pairwise (· > ·))
    (hsrc : ∀ s ∈ steps, s.src ≠ "Formation age")
    (out : List (StratRow K)) (h : makeStratCol thickMin tol true age steps = .ok out)
    (depths : List K) :
    ∃ run, aggFile depths (out.map StratRow.toAgg) = .ok (some run) ∧
      run.total = (out.map (·.ice)).sum ∧
      run.maxdepth = (out.map (fun r => r.ice + r.ejecta)).sum ∧
      run.upTo = depths.map (fun d => iceAbove d (out.map StratRow.toAgg)) := by
  obtain ⟨r, layers, s0, rest, ho, _, hlab, _, _, htime, _, hl⟩ :=
    C24_time_order thickMin tol age steps hdec hsrc out h
  have hlay := layered_strat hpos h
  have hmono := C22_depth_monotone thickMin tol age true steps hpos out h
  obtain ⟨_, _, _, hhead⟩ := C22_depth_cumulative thickMin tol age true steps out h
  obtain ⟨run, hrun⟩ : ∃ run, aggFile depths (out.map StratRow.toAgg) = .ok (some run) := by
    refine (C70_reads depths _).1.2 ⟨r.toAgg, [], layers.map StratRow.toAgg, by simp [ho], hlab, ?_⟩
    intro x hx
    obtain ⟨o, hom, rfl⟩ := List.mem_map.1 (by simpa using hx)
    exact (hl o hom).1
  refine ⟨run, hrun, ?_⟩
  obtain ⟨f, hf, hflab, ⟨kept, hkept, htot, hmd, ⟨x, hxk, hx⟩, hup⟩, _⟩ :=
    C70_file depths _ hlay run hrun
  have hft : f.time = s0.time := by
    obtain ⟨o, hom, rfl⟩ := List.mem_map.1 hf
    rw [ho] at hom
    rcases List.mem_cons.1 hom with rfl | hom
    · exact htime
    · exact absurd hflab (hl o hom).1
  have hall : kept = out.map StratRow.toAgg := by
    rw [hkept, List.filter_eq_self]
    intro y hy
    obtain ⟨o, hom, rfl⟩ := List.mem_map.1 hy
    rw [ho] at hom
    rw [hft]
    rcases List.mem_cons.1 hom with rfl | hom
    · simp [StratRow.toAgg, htime]
    · exact decide_eq_true (show o.time ≤ s0.time from (hl o hom).2.1)
  rw [hall] at htot hmd hxk hup
  refine ⟨by rw [htot, List.map_map]; rfl, ?_, hup⟩
  have hr0 : out[0]? = some r := by simp [ho]
  have hdr := hhead r (by simp [ho])
  rw [← hdr]
  apply le_antisymm
  · rw [← hx]
    obtain ⟨o, hom, rfl⟩ := List.mem_map.1 hxk
    obtain ⟨j, hj⟩ := List.getElem?_of_mem hom
    exact (hmono 0 j r o (by omega) hr0 hj).2
  · exact hmd r.toAgg (List.mem_map.2 ⟨r, by simp [ho], rfl⟩)

/-- **C70** without `strat_after_age` the tables have no `Formation age` row, so reading them
fails. -/
theorem C70_needs_formation_row [FloorRing K] (thickMin tol age : K) (steps : List (Step K))
    (hsrc : ∀ s ∈ steps, s.src ≠ "Formation age")
    (out : List (StratRow K)) (h : makeStratCol thickMin tol false age steps = .ok out)
    (depths : List K) : aggFile depths (out.map StratRow.toAgg) = .error .typeError := by
  obtain ⟨pre, ho, hpre⟩ := makeStratCol_ok h
  rcases hpre with ⟨_, rfl⟩ | ⟨h', _⟩
  · apply (C70_reads depths _).2.2
    rw [(C70_reads depths _).1]
    rintro ⟨f, p, q, hpq, hf, _⟩
    have hfm : f ∈ out.map StratRow.toAgg := by rw [hpq]; simp
    obtain ⟨o, hom, rfl⟩ := List.mem_map.1 hfm
    obtain ⟨tail, htail⟩ : ∃ t, t = [] ++ dropUnlabelled (labelRows thickMin
      (steps.filter (fun s => decide (false = true → s.time < age + |age| * tol)))) := ⟨_, rfl⟩
    rw [← htail] at ho
    have hl' : o.label ∈ (mergeAdjacent tail).map (·.label) := by
      rw [← addDepthPct_rows (mergeAdjacent tail), ← ho, List.map_map]
      exact List.mem_map.2 ⟨o, hom, rfl⟩
    rw [merge_labels, ← runs_labels] at hl'
    obtain ⟨g, hg, hgl⟩ := List.mem_map.1 hl'
    have hgt : g.1 ∈ tail := by
      rw [← (runs_blocks (fun r : Row K => r.label) tail).flatten, List.mem_flatten]
      exact ⟨toBlock g, List.mem_map.2 ⟨g, hg, rfl⟩, List.mem_cons_self⟩
    rw [htail, List.nil_append] at hgt
    obtain ⟨s, hs, hl⟩ := dropUnlabelled_labels thickMin _ _ hgt
    have hs' := hsrc s (List.mem_of_mem_filter hs)
    have hlab : g.1.label = "Formation age" := by rw [hgl]; exact hf
    rw [hlab] at hl
    unfold rowLabel at hl
    revert hl
    by_cases h1 : thickMin < s.ice <;> by_cases h2 : thickMin < s.ejecta <;>
      by_cases h3 : s.src = "" <;> simp [h1, h2, h3, hs']
  · cases h'

/-- Non-vacuity: a run table with ice partly above the depth asked for. -/
example : (makeStratCol (1 / 10 : ℚ) 0 true 5 [⟨4, 2, 0, ""⟩, ⟨3, 1, 1, "A"⟩, ⟨2, 3, 0, ""⟩]).bind
    (fun out => aggFile [1, 4, 6, 7] (out.map StratRow.toAgg)) =
    .ok (some { total := 6, maxdepth := 7, upTo := [1, 3, 5, 6] }) := by decide +kernel

end MoonPIES
