import Verif.Props.Threshold
import Verif.Lemmas.PlotColumn
import Verif.Props.Reach
import Verif.Lemmas.Protect
import Verif.Lemmas.RenameTable

/-!
# C173: what `strat_after_age` changes
-/

namespace MoonPIES

open Spec

section
variable {K : Type} [Field K] [LinearOrder K]

omit [LinearOrder K] in
/-- One more row on the old side of a column: it joins the oldest layer if it has its label. -/
theorem merge_cons_cons (r s : Row K) (l : List (Row K)) :
    ∃ m ms, mergeAdjacent (s :: l) = m :: ms ∧ mergeAdjacent (r :: s :: l) =
      if r.label = s.label then { m with ice := r.ice + m.ice, ejecta := r.ejecta + m.ejecta } :: ms
      else r :: m :: ms := by
  obtain ⟨bs, rest, hb⟩ := runs_head (fun r : Row K => r.label) s l
  have hdef : runs (fun r : Row K => r.label) (r :: s :: l) =
      if r.label = s.label then (r, s :: bs) :: rest else (r, []) :: (s, bs) :: rest := by
    rw [runs, hb]
  refine ⟨aggRow (s, bs), rest.map aggRow, ?_, ?_⟩
  · unfold mergeAdjacent
    rw [groupRuns_eq, hb]
    rfl
  · unfold mergeAdjacent
    rw [groupRuns_eq, hdef]
    split
    · rw [List.map_cons]
      congr 1
      unfold aggRow
      simp only [List.map_cons, List.sum_cons]
      have : (s :: bs).getLastD r = bs.getLastD s := by cases bs <;> rfl
      rw [this]
    · rw [List.map_cons, List.map_cons]
      congr 1
      unfold aggRow
      simp

/-- A layer cut at its old side. -/
structure CutRow (r' r : Row K) : Prop where
  label : r'.label = r.label
  time : r'.time = r.time
  ice : r'.ice ≤ r.ice
  ejecta : r'.ejecta ≤ r.ejecta

theorem merge_suffix [IsStrictOrderedRing K] (s : Row K) (l : List (Row K)) : ∀ a : List (Row K),
    (∀ r ∈ a, 0 ≤ r.ice ∧ 0 ≤ r.ejecta) → ∃ older first first' rest,
      mergeAdjacent (a ++ s :: l) = older ++ first :: rest ∧ mergeAdjacent (s :: l) = first' :: rest ∧
      CutRow first' first ∧ ∀ o ∈ older, ∃ r ∈ a, o.time = r.time
  | [], _ => by
    obtain ⟨m, ms, h, -⟩ := merge_cons_cons s s l
    exact ⟨[], m, m, ms, h, h, ⟨rfl, rfl, le_rfl, le_rfl⟩, by simp⟩
  | r :: a, hpos => by
    obtain ⟨older, first, first', rest, h1, h2, h3, h4⟩ := merge_suffix s l a (fun x hx => hpos x (List.mem_cons_of_mem _ hx))
    obtain ⟨p1, p2⟩ := hpos r List.mem_cons_self
    obtain ⟨q, t, hq⟩ : ∃ q t, a ++ s :: l = q :: t := by
      cases a with
      | nil => exact ⟨_, _, rfl⟩
      | cons q a => exact ⟨_, _, rfl⟩
    obtain ⟨m, ms, e1, e2⟩ := merge_cons_cons r q t
    rw [List.cons_append, hq]
    rw [hq, e1] at h1
    by_cases hl : r.label = q.label
    · rw [if_pos hl] at e2
      cases older with
      | nil =>
        rw [List.nil_append] at h1
        injection h1 with h1 h1'
        refine ⟨[], _, first', rest, by rw [e2, h1']; rfl, h2, ⟨?_, ?_, ?_, ?_⟩, by simp⟩
        · rw [h1]; exact h3.label
        · rw [h1]; exact h3.time
        · rw [h1]
          have := h3.ice
          show first'.ice ≤ r.ice + first.ice
          linarith
        · rw [h1]
          have := h3.ejecta
          show first'.ejecta ≤ r.ejecta + first.ejecta
          linarith
      | cons o older =>
        rw [List.cons_append] at h1
        injection h1 with h1 h1'
        refine ⟨_ :: older, first, first', rest, by rw [e2, h1']; rfl, h2, h3, ?_⟩
        intro x hx
        rcases List.mem_cons.1 hx with rfl | hx
        · obtain ⟨q, q1, q2⟩ := h4 o List.mem_cons_self
          exact ⟨q, List.mem_cons_of_mem _ q1, by rw [← q2, ← h1]⟩
        · obtain ⟨q, q1, q2⟩ := h4 x (List.mem_cons_of_mem _ hx)
          exact ⟨q, List.mem_cons_of_mem _ q1, q2⟩
    · rw [if_neg hl] at e2
      refine ⟨r :: older, first, first', rest, by rw [e2, h1]; rfl, h2, h3, ?_⟩
      intro x hx
      rcases List.mem_cons.1 hx with rfl | hx
      · exact ⟨x, List.mem_cons_self, rfl⟩
      · obtain ⟨q, q1, q2⟩ := h4 x hx
        exact ⟨q, List.mem_cons_of_mem _ q1, q2⟩

omit [LinearOrder K] in
theorem merge_times : ∀ (l : List (Row K)), ∀ o ∈ mergeAdjacent l, ∃ r ∈ l, o.time = r.time
  | [], o, ho => by cases ho
  | [r], o, ho => by
    have : mergeAdjacent [r] = [aggRow (r, [])] := rfl
    rw [this, List.mem_singleton] at ho
    exact ⟨r, List.mem_cons_self, by rw [ho]; rfl⟩
  | r :: s :: l, o, ho => by
    obtain ⟨m, ms, e1, e2⟩ := merge_cons_cons r s l
    have ih := merge_times (s :: l)
    rw [e1] at ih
    rw [e2] at ho
    have up : ∀ o ∈ m :: ms, ∃ q ∈ r :: s :: l, o.time = q.time := by
      intro o ho
      obtain ⟨q, q1, q2⟩ := ih o ho
      exact ⟨q, List.mem_cons_of_mem _ q1, q2⟩
    split at ho
    · rcases List.mem_cons.1 ho with rfl | ho
      · exact up m List.mem_cons_self
      · exact up o (List.mem_cons_of_mem _ ho)
    · rcases List.mem_cons.1 ho with rfl | ho
      · exact ⟨o, List.mem_cons_self, rfl⟩
      · exact up o ho

/-- Spec: `first'` is what a table that starts at some time still shows of the layer `first`. -/
structure Spec.CutLayer (first' first : StratRow K) : Prop where
  label : first'.label = first.label
  time : first'.time = first.time
  ice : first'.ice ≤ first.ice
  ejecta : first'.ejecta ≤ first.ejecta
  depth : first'.depth ≤ first.depth

/-- Spec: `cut` is the part of the table `full` from the time `start` on: the layers that ended before are missing, one
layer may have lost its older part, all younger ones are the same, with their depths and shares of ice. -/
def Spec.YoungerPart (start : K) (full cut : List (StratRow K)) : Prop :=
  (∀ r ∈ cut, r.time < start) ∧ ((cut = [] ∧ ∀ r ∈ full, start ≤ r.time) ∨
    ∃ older first first' rest, full = older ++ first :: rest ∧ cut = first' :: rest ∧ CutLayer first' first ∧
      ∀ r ∈ older, start ≤ r.time)

variable [IsStrictOrderedRing K] [FloorRing K]

omit [IsStrictOrderedRing K] in
theorem addDepthPct_append (a b : List (Row K)) :
    ∃ c, addDepthPct (a ++ b) = c ++ addDepthPct b ∧ c.map StratRow.row = a := by
  induction a with
  | nil => exact ⟨[], rfl, rfl⟩
  | cons r a ih =>
    obtain ⟨c, h1, h2⟩ := ih
    obtain ⟨o, e1, e2, -⟩ := addDepthPct_cons r (a ++ b)
    exact ⟨o :: c, by rw [List.cons_append, e1, h1]; rfl, by rw [List.map_cons, e2, h2]⟩

/-- **C173** With `strat_after_age` the table of a cold trap is a row for its formation, which holds nothing, and below
it in the file the part of the table without `strat_after_age` that is younger. -/
theorem C173_table (m tol age age' : K) (steps : List (Step K)) (hpos : ∀ s ∈ steps, 0 ≤ s.ice ∧ 0 ≤ s.ejecta)
    (hdec : (steps.map (·.time)).Pairwise (· > ·)) (hsrc : ∀ s ∈ steps, s.src ≠ "Formation age")
    (full table : List (StratRow K)) (h : makeStratCol m tol false age' steps = .ok full)
    (h' : makeStratCol m tol true age steps = .ok table) :
    ∃ f cut, table = f :: cut ∧ f.label = "Formation age" ∧ f.ice = 0 ∧ f.ejecta = 0 ∧ f.icepct = none ∧
      f.depth = (cut.map fun r => r.ice + r.ejecta).sum ∧ YoungerPart (age + |age| * tol) full cut := by
  obtain ⟨pre, ho, hpre⟩ := makeStratCol_ok h
  rcases hpre with ⟨-, rfl⟩ | ⟨hx, -⟩
  swap
  · cases hx
  obtain ⟨pre, ho', hpre⟩ := makeStratCol_ok h'
  rcases hpre with ⟨hx, -⟩ | ⟨-, s0, later, hs0, rfl⟩
  · cases hx
  rw [dropUnlabelled_tableRow] at ho ho'
  obtain ⟨n, n1, n2, n3⟩ := shown_drop tol age true steps hdec
  change table = addDepthPct (mergeAdjacent (_ ++ (shown tol age true steps).filterMap (tableRow m))) at ho'
  have hall : steps.filter (fun s => decide (false = true → s.time < age' + |age'| * tol)) = steps := by simp
  rw [hall, List.nil_append] at ho
  obtain ⟨B, hB⟩ : ∃ t, t = (shown tol age true steps).filterMap (tableRow m) := ⟨_, rfl⟩
  obtain ⟨A, hA⟩ : ∃ t, t = (steps.take n).filterMap (tableRow m) := ⟨_, rfl⟩
  have hAB : steps.filterMap (tableRow m) = A ++ B := by
    rw [hA, hB, n2, ← List.filterMap_append, List.take_append_drop]
  rw [hAB] at ho
  rw [← hB] at ho'
  have row_of : ∀ r : Row K, ∀ s, tableRow m s = some r → r.time = s.time ∧ r.ice = s.ice ∧ r.ejecta = s.ejecta ∧
      rowLabel m s = some r.label := by
    intro r s e
    unfold tableRow at e
    obtain ⟨l, l1, l2⟩ := Option.map_eq_some_iff.1 e
    rw [← l2]
    exact ⟨rfl, rfl, rfl, l1⟩
  have hBl : ∀ r ∈ B, r.label ≠ "Formation age" ∧ r.time < age + |age| * tol := by
    intro r hr
    rw [hB, List.mem_filterMap] at hr
    obtain ⟨s, s1, s2⟩ := hr
    obtain ⟨e1, -, -, e2⟩ := row_of r s s2
    unfold shown at s1
    obtain ⟨s3, s4⟩ := List.mem_filter.1 s1
    refine ⟨?_, by rw [e1]; exact of_decide_eq_true s4 rfl⟩
    intro e
    rw [e] at e2
    have hne := hsrc s s3
    unfold rowLabel at e2
    by_cases h1 : s.ice > m <;> by_cases h2 : s.ejecta > m <;> by_cases h3 : s.src = "" <;> simp_all
  have hAt : ∀ r ∈ A, age + |age| * tol ≤ r.time ∧ 0 ≤ r.ice ∧ 0 ≤ r.ejecta := by
    intro r hr
    rw [hA, List.mem_filterMap] at hr
    obtain ⟨s, s1, s2⟩ := hr
    obtain ⟨e1, e2, e3, -⟩ := row_of r s s2
    have hs := hpos s (List.mem_of_mem_take s1)
    obtain ⟨i, hi⟩ := List.mem_iff_getElem?.1 s1
    rw [List.getElem?_take] at hi
    split at hi
    · rename_i hin
      have := n3 i s hi
      rw [e1, e2, e3]
      refine ⟨?_, hs⟩
      by_contra hlt
      have := this.2 (fun _ => not_le.1 hlt)
      omega
    · cases hi
  rw [List.singleton_append, merge_cons_new _ _ (fun r hr => (hBl r hr).1)] at ho'
  obtain ⟨f, f1, f2, f3, f4⟩ := addDepthPct_cons (aggRow ((⟨s0.time, 0, 0, "Formation age"⟩ : Row K), [])) (mergeAdjacent B)
  have hz : aggRow ((⟨s0.time, 0, 0, "Formation age"⟩ : Row K), []) = ⟨s0.time, 0, 0, "Formation age"⟩ := by
    simp [aggRow]
  rw [hz] at f2 f3 f4
  have hsum : ((addDepthPct (mergeAdjacent B)).map fun r => r.ice + r.ejecta) =
      (mergeAdjacent B).map fun r => r.ice + r.ejecta := by
    conv_rhs => rw [← addDepthPct_rows (mergeAdjacent B), List.map_map]
    rfl
  have row_time : ∀ (rows : List (StratRow K)) (r : StratRow K), r ∈ rows →
      ∃ q ∈ rows.map StratRow.row, q.time = r.time := fun rows r hr => ⟨r.row, List.mem_map_of_mem hr, rfl⟩
  refine ⟨f, addDepthPct (mergeAdjacent B), by rw [ho', f1], congrArg Row.label f2, congrArg Row.ice f2,
    congrArg Row.ejecta f2, by rw [f4, if_pos (by simp)], by rw [f3, hsum]; simp, ?_, ?_⟩
  · intro r hr
    obtain ⟨q, q1, q2⟩ := row_time _ r hr
    rw [addDepthPct_rows] at q1
    obtain ⟨w, w1, w2⟩ := merge_times B q q1
    rw [← q2, w2]
    exact (hBl w w1).2
  · cases B with
    | nil =>
      left
      refine ⟨rfl, ?_⟩
      intro r hr
      rw [ho, List.append_nil] at hr
      obtain ⟨q, q1, q2⟩ := row_time _ r hr
      rw [addDepthPct_rows] at q1
      obtain ⟨w, w1, w2⟩ := merge_times A q q1
      rw [← q2, w2]
      exact (hAt w w1).1
    | cons b B =>
      right
      obtain ⟨older, first, first', rest, g1, g2, g3, g4⟩ := merge_suffix b B A (fun r hr => (hAt r hr).2)
      obtain ⟨c, c1, c2⟩ := addDepthPct_append older (first :: rest)
      obtain ⟨x, x1, x2, x3, -⟩ := addDepthPct_cons first rest
      obtain ⟨y, y1, y2, y3, -⟩ := addDepthPct_cons first' rest
      refine ⟨c, x, y, addDepthPct rest, by rw [ho, g1, c1, x1], by rw [g2, y1], ⟨?_, ?_, ?_, ?_, ?_⟩, ?_⟩
      · exact (congrArg Row.label y2).trans (g3.label.trans (congrArg Row.label x2).symm)
      · exact (congrArg Row.time y2).trans (g3.time.trans (congrArg Row.time x2).symm)
      · exact (congrArg Row.ice y2).trans_le (g3.ice.trans_eq (congrArg Row.ice x2).symm)
      · exact (congrArg Row.ejecta y2).trans_le (g3.ejecta.trans_eq (congrArg Row.ejecta x2).symm)
      · rw [x3, y3]
        have := g3.ice
        have := g3.ejecta
        linarith
      · intro r hr
        obtain ⟨q, q1, q2⟩ := row_time _ r hr
        rw [c2] at q1
        obtain ⟨w, w1, w2⟩ := g4 q q1
        rw [← q2, w2]
        exact (hAt w w1).1

end

/-- A layer of ice that began before the trap formed is cut, the ejecta above it are not touched. -/
example :
    (makeStratCol (K := ℚ) (1 / 10) 0 false 0 [⟨4, 1, 9, "Shackleton"⟩, ⟨3, 2, 0, ""⟩, ⟨2, 3, 0, ""⟩, ⟨1, 0, 5, "Faustini"⟩]).map
        (List.map (fun r => (r.label, r.ice, r.ejecta, r.depth))) =
      .ok [("Shackleton", 1, 9, 20), ("Ice", 5, 0, 10), ("Faustini", 0, 5, 5)] ∧
    (makeStratCol (K := ℚ) (1 / 10) 0 true (5 / 2) [⟨4, 1, 9, "Shackleton"⟩, ⟨3, 2, 0, ""⟩, ⟨2, 3, 0, ""⟩, ⟨1, 0, 5, "Faustini"⟩]).map
        (List.map (fun r => (r.label, r.ice, r.ejecta, r.depth))) =
      .ok [("Formation age", 0, 0, 8), ("Ice", 3, 0, 8), ("Faustini", 0, 5, 5)] := by
  decide +kernel

/-! ## Runs -/

variable {σ : Type}

theorem setup_after (g : Gen σ) (c : RunCfg) (b : Bool) (d : RunData) :
    setup g { c with strat_after_age := b } d = setup g c d := by
  have hi : ∀ (c : RunCfg) df time s, impactIce g { c with strat_after_age := b } df time s = impactIce g c df time s :=
    fun c df time s => impactIce_same g c { c with strat_after_age := b } df time (fun _ => rfl) rfl rfl rfl (fun _ => rfl)
      (fun _ => rfl) (fun _ _ => rfl) (fun _ _ _ => rfl) rfl rfl s
  have hcm : ∀ df time s, impactIce g ({ c with strat_after_age := b } : RunCfg).comet df time s =
      impactIce g c.comet df time s := fun df time s => hi c.comet df time s
  have hp : ∀ df time s, polarIce g { c with strat_after_age := b } (readLuminosity d.lum) df time s =
      polarIce g c (readLuminosity d.lum) df time s := by
    intro df time s
    unfold polarIce impactIceComet
    simp only [hi, hcm]
    rfl
  have hic : ∀ df time s, iceCols g { c with strat_after_age := b } d df time s = iceCols g c d df time s := by
    intro df time s
    unfold iceCols
    rw [hp]
    rfl
  have hin : ∀ time df thick s, initStratCols g { c with strat_after_age := b } d time df thick s =
      initStratCols g c d time df thick s := by
    intro time df thick s
    unfold initStratCols
    simp only [hic]
  unfold setup
  simp only [hin]
  rfl

/-- **C173** If a run with `strat_after_age` returns, so does the run without, with the same columns. -/
theorem C173_columns (g : Gen σ) (c : RunCfg) (d : RunData) (out' : CsvOut)
    (h : runMain g { c with strat_after_age := true } d = .ok out') :
    ∃ out, runMain g { c with strat_after_age := false } d = .ok out ∧
      ∀ name ∈ c.coldtrap_names, ∃ ice ej, out.ice.get name = .ok ice ∧ out.ej.get name = .ok ej ∧
        out'.ice.get name = .ok ice ∧ out'.ej.get name = .ok ej := by
  have h0 := h
  unfold runMain at h ⊢
  rw [setup_after] at h ⊢
  obtain ⟨st, hst, h⟩ := bind_ok_inv h
  obtain ⟨cols, hcols, h⟩ := bind_ok_inv h
  have hcols := liftPy_ok hcols
  have h := liftPy_ok h
  have hx : ∃ out, formatCsv { c with strat_after_age := false } d st.time st.df cols = .ok out := by
    have h2 := h
    unfold formatCsv at h2 ⊢
    obtain ⟨ages, a1, h2⟩ := bind_ok_inv h2
    obtain ⟨⟨o, srcs⟩, a2, h2⟩ := bind_ok_inv h2
    have a1 : trapAges st.df c.coldtrap_names = .ok ages := a1
    obtain ⟨res, r1, r2⟩ := formatLoop_ok { c with strat_after_age := false } st.time cols ages (⟨[], [], [], []⟩, []) (by
      intro p hp
      obtain ⟨col, t, e1, -⟩ := formatLoop_each _ _ _ _ _ _ a2 p hp
      exact ⟨col, _, e1, rfl⟩)
    obtain ⟨o2, srcs2⟩ := res
    have hne : ¬ srcs2 = [] := by
      intro e
      rw [e] at r2
      have hag : ages = [] := by
        apply List.eq_nil_of_length_eq_zero
        simpa using r2.symm
      rw [hag] at a2
      injection a2 with a2
      have hs : srcs = [] := (congrArg Prod.snd a2).symm
      subst hs
      simp at h2
    simp only [a1, r1, bind, Except.bind, if_neg hne]
    exact ⟨_, rfl⟩
  obtain ⟨out, hout⟩ := hx
  refine ⟨out, ?_, ?_⟩
  · rw [hst]
    show (liftPy (updateStratCols id ejShield c.impact_gardening_costello c.coldtrap_names
      st.cols st.overturn st.bsedDepth st.bsedFrac) >>= _) = _
    have hcols : updateStratCols id ejShield c.impact_gardening_costello c.coldtrap_names
      st.cols st.overturn st.bsedDepth st.bsedFrac = .ok cols := hcols
    rw [hcols]
    show liftPy (formatCsv { c with strat_after_age := false } d st.time st.df cols) = _
    rw [hout]
    rfl
  · intro name hn
    obtain ⟨-, f⟩ := formatCsv_inv _ _ _ _ _ _ hout
    obtain ⟨-, f'⟩ := formatCsv_inv _ _ _ _ _ _ h
    obtain ⟨r, -, -, col, t, t1, -, t3, t4, -⟩ := f name hn
    obtain ⟨r', -, -, col', t', u1, -, u3, u4, -⟩ := f' name hn
    rw [t1] at u1
    injection u1 with u1
    subst u1
    exact ⟨_, _, t3, t4, u3, u4⟩

theorem steps_ext {a b : List (Step ℝ)} (h1 : a.map (·.time) = b.map (·.time)) (h2 : a.map (·.ice) = b.map (·.ice))
    (h3 : a.map (·.ejecta) = b.map (·.ejecta))
    (h4 : ∀ (i : Nat) s t, a[i]? = some s → b[i]? = some t → s.src = t.src) : a = b := by
  have hl : a.length = b.length := by simpa using congrArg List.length h1
  apply List.ext_getElem hl
  intro i i1 i2
  have e1 := congrArg (fun l => l[i]?) h1
  have e2 := congrArg (fun l => l[i]?) h2
  have e3 := congrArg (fun l => l[i]?) h3
  have e4 := h4 i _ _ (List.getElem?_eq_getElem i1) (List.getElem?_eq_getElem i2)
  simp only [List.getElem?_map, List.getElem?_eq_getElem i1, List.getElem?_eq_getElem i2, Option.map_some,
    Option.some.injEq] at e1 e2 e3
  revert e1 e2 e3 e4
  generalize a[i] = x
  generalize b[i] = y
  rintro e1 e2 e3 e4
  cases x
  cases y
  simp only at e1 e2 e3 e4
  rw [e1, e2, e3, e4]

/-- **C173** Switching `strat_after_age` off in a run that returns leaves its columns as they are, and the table of each
cold trap is a row for its formation and the part since then of the table without `strat_after_age`. -/
theorem C173_run (g : Gen σ) (hg : LawfulGen g) (c : RunCfg) (d : RunData) (hc : PhysicalCfg c)
    (hd : PhysicalData c d) (hl : Lunar c d) (hnd : c.coldtrap_names.Nodup) (hdt : 0 < c.timestep)
    (hts : c.timestep < c.timestart) (hspan : c.timestep ≤ c.timestart - c.timeend)
    (hp : ∀ r ∈ d.craters ++ d.basins, PlainName r.cname) (hsaa : c.strat_after_age = true) (out : CsvOut)
    (hrun : runMain g c d = .ok out) :
    ∃ out₀ df s, runMain g { c with strat_after_age := false } d = .ok out₀ ∧
      craterBasinList g c d (g.init c.seed) = .ok (df, s) ∧
      ∀ name ∈ c.coldtrap_names, ∃ trap ∈ df, trap.rest.crater.cname = name ∧
        ∃ ice ej full f cut, out.ice.get name = .ok ice ∧ out₀.ice.get name = .ok ice ∧
          out.ej.get name = .ok ej ∧ out₀.ej.get name = .ok ej ∧ out₀.strat.get name = .ok full ∧
          out.strat.get name = .ok (f :: cut) ∧ f.label = "Formation age" ∧ f.ice = 0 ∧ f.ejecta = 0 ∧
          f.icepct = none ∧ f.depth = (cut.map fun r => r.ice + r.ejecta).sum ∧
          YoungerPart (trap.age + |trap.age| * 1e-6) full cut := by
  have hrun1 : runMain g { c with strat_after_age := true } d = .ok out := by rw [← hsaa]; exact hrun
  obtain ⟨out0, hrun0, hcol⟩ := C173_columns g c d out hrun1
  obtain ⟨df, s, time, h1, h2, h3⟩ := run_steps_nonneg g hg c d hc hd hl hnd out hrun
  obtain ⟨df0, s0, time0, k1, k2, k3⟩ := run_steps_nonneg g hg { c with strat_after_age := false } d { hc with }
    { hd with } { hl with } hnd out0 hrun0
  have k1 : craterBasinList g c d (g.init c.seed) = .ok (df0, s0) := k1
  rw [h1] at k1
  injection k1 with k1
  obtain ⟨rfl, rfl⟩ := Prod.mk.inj k1
  have k2 : getTimeArray c.timestart c.timeend c.timestep = .ok time0 := k2
  rw [h2] at k2
  injection k2 with k2
  subst k2
  obtain ⟨l, hl1, -, -, hl2, -⟩ := C19_shape_partial c.timestart c.timeend c.timestep hdt hts hspan
  rw [h2] at hl1
  injection hl1 with hl1
  subst hl1
  have hgood : ∀ r ∈ d.craters ++ d.basins, GoodName r.cname := fun r hr => plain_good (hp r hr)
  refine ⟨out0, df, s, hrun0, h1, ?_⟩
  intro name hn
  obtain ⟨trap, t1, t2, steps, table, a1, a2, a3, a4, a5, a6, th, b1, b2⟩ := h3 name hn
  obtain ⟨trap0, -, -, steps0, full, c1, c2, c3, c4, c5, -, th0, d1, d2⟩ := k3 name hn
  obtain ⟨ice, ej, i1, i2, i3, i4⟩ := hcol name hn
  have hth : th0 = th := rowEjecta_unique (c := c) (df := df) (name := name) d1 b1
  subst hth
  have hice : steps0.map (·.ice) = steps.map (·.ice) := by
    rw [c1] at i1
    rw [a1] at i3
    injection i1 with i1
    injection i3 with i3
    rw [i1, i3]
  have hej : steps0.map (·.ejecta) = steps.map (·.ejecta) := by
    rw [c2] at i2
    rw [a2] at i4
    injection i2 with i2
    injection i4 with i4
    rw [i2, i4]
  have hsteps : steps0 = steps := steps_ext (c4.trans a4.symm) hice hej
    (fun i x y hx hy => (d2 hgood i x hx).trans (b2 hgood i y hy).symm)
  subst hsteps
  have hsrc : ∀ st ∈ steps0, st.src ≠ "Formation age" := by
    intro st hst
    obtain ⟨i, hi⟩ := List.mem_iff_getElem?.1 hst
    rw [b2 hgood i st hi]
    by_cases hnil : Sources RunCfg.rtol c.thickness_min time df th0 i = []
    · rw [hnil]; decide
    · refine join_plain_ne hnil ?_ (by simp)
      intro n hns
      unfold Sources at hns
      obtain ⟨q, hq, rfl⟩ := List.mem_map.1 hns
      have hq' : (q.1, q.2) ∈ df.zip th0 := List.mem_of_mem_filter hq
      obtain ⟨r, r1, r2⟩ := df_names g c d hd.sorted _ _ _ h1 q.1 (List.of_mem_zip hq').1
      rw [← r2]
      exact hp r r1
  rw [hsaa] at a5
  obtain ⟨f, cut, rfl, f1, f2, f3, f4, f5, f6⟩ := C173_table c.thickness_min RunCfg.rtol trap.age trap0.age steps0 a6
    (by rw [a4]; exact hl2) hsrc full table c5 a5
  exact ⟨trap, t1, t2, ice, ej, full, f, cut, i3, i1, i4, i2, c3, a3, f1, f2, f3, f4, f5, f6⟩

theorem shipped_plain (nk : List (ℝ × ℝ)) (sort : CraterTable → CraterTable) (sortNk : List (ℝ × ℝ) → List (ℝ × ℝ))
    (setOrder : List (List Char) → List (List Char)) :
    ∀ r ∈ (shippedData nk sort sortNk setOrder).craters ++ (shippedData nk sort sortNk setOrder).basins,
      PlainName r.cname := by
  intro r hr
  rw [show (shippedData nk sort sortNk setOrder).craters ++ (shippedData nk sort sortNk setOrder).basins =
    (craterFile ++ basinFile).map FileRow.read by rw [List.map_append]; rfl] at hr
  obtain ⟨q, hq, rfl⟩ := List.mem_map.1 hr
  have : ∀ q ∈ craterFile ++ basinFile, (decide (q.cname ≠ "") && decide (',' ∉ q.cname.toList) &&
      decide (q.cname ≠ "Ice") && decide (q.cname ≠ "Minor source(s)") && decide (q.cname ≠ "Formation age")) = true := by
    decide +kernel
  exact plainName_dec _ (this q hq)

/-- The default configuration has `strat_after_age`; without it the shipped files give the same columns. -/
example : ∃ out out₀, runMain constGen (RunCfg.default 1) (shippedData [] sortDesc id id) = .ok out ∧
    runMain constGen { RunCfg.default 1 with strat_after_age := false } (shippedData [] sortDesc id id) = .ok out₀ ∧
    ∃ full f cut, out₀.strat.get "Faustini" = .ok full ∧ out.strat.get "Faustini" = .ok (f :: cut) ∧
      f.label = "Formation age" ∧ ∃ start, YoungerPart start full cut := by
  have hc := default_physical 1
  have hd := default_data [] sortDesc id id sortDesc_spec 1
  have hr := default_runnable [] sortDesc id id 1
  obtain ⟨out, hrun⟩ := C72_returns constGen constGen_lawful _ _ hc hd hr
  have t1 : (0 : ℝ) < (RunCfg.default 1).timestep := by simp only [RunCfg.default]; norm_num
  have t2 : (RunCfg.default 1).timestep ≤ (RunCfg.default 1).timestart - (RunCfg.default 1).timeend := by
    have := hr.span
    linarith
  obtain ⟨out0, df, s, h1, h2, h3⟩ := C173_run constGen constGen_lawful _ _ hc hd (default_lunar [] sortDesc id id 1)
    hr.nodup t1 hr.start t2 (shipped_plain _ _ _ _) rfl out hrun
  obtain ⟨trap, -, -, ice, ej, full, f, cut, -, -, -, -, e1, e2, e3, -, -, -, -, e4⟩ := h3 "Faustini" (by
    simp [RunCfg.default])
  exact ⟨out, out0, hrun, h1, full, f, cut, e1, e2, e3, _, e4⟩

end MoonPIES
