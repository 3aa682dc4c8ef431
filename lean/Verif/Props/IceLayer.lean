import Verif.Props.OneStep

/-!
# C180: what a layer labelled `Ice` holds
-/

namespace MoonPIES

open Spec

/-- The rows a merged row is made of. -/
theorem merge_block (rows : List (Row ℝ)) (o : Row ℝ) (ho : o ∈ mergeAdjacent rows) :
    ∃ b, b.Sublist rows ∧ b ≠ [] ∧ (∀ r ∈ b, r.label = o.label) ∧ o.ice = (b.map (·.ice)).sum ∧
      o.ejecta = (b.map (·.ejecta)).sum := by
  obtain ⟨bs, hb, hs⟩ := C20_merge_spec rows
  obtain ⟨i, hi⟩ := List.mem_iff_getElem?.1 ho
  have hil := (List.getElem?_eq_some_iff.1 hi).1
  have hl' : i < bs.length := by rw [hs.length_eq]; exact hil
  have hsum := (List.forall₂_iff_get.1 hs).2 i hl' hil
  have e : (mergeAdjacent rows).get ⟨i, hil⟩ = o := (List.getElem?_eq_some_iff.1 hi).2
  rw [e] at hsum
  have hbm : bs.get ⟨i, hl'⟩ ∈ bs := List.get_mem _ _
  obtain ⟨s1, s2, l, s3, s4, -⟩ := hsum
  refine ⟨_, by rw [← hb.flatten]; exact List.sublist_flatten_of_mem hbm, hb.nonempty _ hbm, ?_, s1, s2⟩
  intro r hr
  rw [s4]
  exact hb.const _ hbm r hr l (List.mem_of_getLast? s3)

theorem sum_ejecta_lt_ice : ∀ b : List (Row ℝ), b ≠ [] → (∀ r ∈ b, r.ejecta < r.ice) →
    (b.map (·.ejecta)).sum < (b.map (·.ice)).sum
  | [], h, _ => absurd rfl h
  | [a], _, h => by simpa using h a (by simp)
  | a :: b :: l, _, h => by
    have h1 := h a (by simp)
    have h2 := sum_ejecta_lt_ice (b :: l) (by simp) (fun r hr => h r (List.mem_cons_of_mem _ hr))
    rw [List.map_cons, List.sum_cons, List.map_cons (l := b :: l), List.sum_cons]
    linarith

theorem round4_mono {x y : ℝ} (h : x ≤ y) : round4 x ≤ round4 y := by
  unfold round4
  have := roundHalfEven_mono (x := x * 10000) (y := y * 10000) (by linarith)
  have h' : ((roundHalfEven (x * 10000) : ℤ) : ℝ) ≤ roundHalfEven (y * 10000) := by exact_mod_cast this
  linarith

/-- **C180** a layer labelled `Ice`, if no source has that name: it holds more ice than ejecta, and its percentage of ice is
at least 50. If no timestep has some ejecta but no more than the least thickness shown, it holds no ejecta, and the percentage
is 100. -/
theorem C180_table (thickMin tol age : ℝ) (saa : Bool) (steps : List (Step ℝ)) (out : List (StratRow ℝ))
    (hsrc : ∀ s ∈ steps, s.src ≠ "Ice") (hej : ∀ s ∈ steps, 0 ≤ s.ejecta)
    (h : makeStratCol thickMin tol saa age steps = .ok out) (r : StratRow ℝ) (hr : r ∈ out) (hl : r.label = "Ice") :
    0 ≤ r.ejecta ∧ r.ejecta < r.ice ∧ (∃ p, r.icepct = some p ∧ 50 ≤ p ∧ p ≤ 100) ∧
      ((∀ s ∈ steps, s.ejecta ≤ thickMin → s.ejecta = 0) → r.ejecta = 0 ∧ r.icepct = some 100) := by
  obtain ⟨pre, ho, hpre⟩ := makeStratCol_ok h
  rw [dropUnlabelled_tableRow] at ho
  obtain ⟨rows, hrows⟩ : ∃ rows, rows = (steps.filter (fun s => decide (saa = true →
      s.time < age + |age| * tol))).filterMap (tableRow thickMin) := ⟨_, rfl⟩
  rw [← hrows] at ho
  have hfrom : ∀ q ∈ pre ++ rows, q.label = "Ice" → ∃ s ∈ steps, s.ice = q.ice ∧ s.ejecta = q.ejecta ∧
      s.ejecta ≤ thickMin ∧ thickMin < s.ice := by
    intro q hq hql
    rcases List.mem_append.1 hq with hq | hq
    · rcases hpre with ⟨-, rfl⟩ | ⟨-, s, rest, -, rfl⟩
      · cases hq
      · rw [List.mem_singleton] at hq
        subst hq
        simp only at hql
        exact absurd hql (by decide)
    · rw [hrows] at hq
      obtain ⟨s, s1, s2⟩ := List.mem_filterMap.1 hq
      have s1 := List.mem_of_mem_filter s1
      unfold tableRow at s2
      obtain ⟨lab, s4, rfl⟩ := Option.map_eq_some_iff.1 s2
      simp only at hql
      rw [hql] at s4
      rcases (rowLabel_spec _ _ _).1 s4 with ⟨-, -, e⟩ | ⟨-, -, e⟩ | ⟨a, b, -⟩
      · exact absurd e.symm (hsrc s s1)
      · exact absurd e (by decide)
      · exact ⟨s, s1, rfl, rfl, a, b⟩
  have hm : r.row ∈ mergeAdjacent (pre ++ rows) := by
    rw [← addDepthPct_rows (mergeAdjacent (pre ++ rows)), ← ho]
    exact List.mem_map_of_mem hr
  obtain ⟨b, b1, b2, b3, b4, b5⟩ := merge_block _ _ hm
  have hb : ∀ q ∈ b, ∃ s ∈ steps, s.ice = q.ice ∧ s.ejecta = q.ejecta ∧ s.ejecta ≤ thickMin ∧ thickMin < s.ice :=
    fun q hq => hfrom q (b1.subset hq) ((b3 q hq).trans hl)
  have h0 : 0 ≤ r.ejecta := by
    show 0 ≤ r.row.ejecta
    rw [b5]
    apply List.sum_nonneg
    intro x hx
    obtain ⟨q, q1, rfl⟩ := List.mem_map.1 hx
    obtain ⟨s, s1, -, s3, -⟩ := hb q q1
    show 0 ≤ q.ejecta
    rw [← s3]; exact hej s s1
  have hlt : r.ejecta < r.ice := by
    show r.row.ejecta < r.row.ice
    rw [b4, b5]
    refine sum_ejecta_lt_ice b b2 ?_
    intro q hq
    obtain ⟨s, -, s2, s3, s4, s5⟩ := hb q hq
    rw [← s2, ← s3]
    exact s4.trans_lt s5
  have hpct := addDepthPct_pct _ r (by rw [← ho]; exact hr)
  have hpos : 0 < r.ice + r.ejecta := by linarith
  rw [if_neg hpos.ne'] at hpct
  have h100 : round4 (100 : ℝ) = 100 := by simpa using round4_int (K := ℝ) 100
  have h50 : round4 (50 : ℝ) = 50 := by simpa using round4_int (K := ℝ) 50
  refine ⟨h0, hlt, ⟨_, hpct, ?_, ?_⟩, ?_⟩
  · refine h50.ge.trans (round4_mono ?_)
    rw [le_div_iff₀ hpos]
    linarith
  · refine (round4_mono ?_).trans h100.le
    rw [div_le_iff₀ hpos]
    linarith
  · intro hz
    have hz' : r.ejecta = 0 := by
      show r.row.ejecta = 0
      rw [b5]
      apply List.sum_eq_zero
      intro x hx
      obtain ⟨q, q1, rfl⟩ := List.mem_map.1 hx
      obtain ⟨s, s1, -, s3, s4, -⟩ := hb q q1
      exact s3.symm.trans (hz s s1 s4)
    refine ⟨hz', ?_⟩
    rw [hpct, hz', add_zero, mul_div_assoc, div_self (by linarith), mul_one, h100]

/-- Two timesteps with little ejecta in one layer of ice; with no ejecta the layer is pure. -/
example : makeStratCol (1 / 10 : ℚ) 0 false 0 [⟨3, 1, 3, "A"⟩, ⟨2, 1, 1 / 20, ""⟩, ⟨1, 2, 1 / 10, ""⟩] =
      .ok [⟨1, 3, "A", 3, 143 / 20, some 25⟩, ⟨3, 3 / 20, "Ice", 1, 63 / 20, some (952381 / 10000)⟩] ∧
    makeStratCol (1 / 10 : ℚ) 0 false 0 [⟨3, 1, 3, "A"⟩, ⟨2, 1, 0, ""⟩, ⟨1, 2, 0, ""⟩] =
      .ok [⟨1, 3, "A", 3, 7, some 25⟩, ⟨3, 0, "Ice", 1, 3, some 100⟩] := by
  decide +kernel

variable {σ : Type}

/-- No timestep of a run with plain names has the name `Ice`. -/
theorem sources_not_ice {c : RunCfg} {time : List ℝ} {df : CraterTable} {th : List ℝ}
    (hpl : ∀ q ∈ df, PlainName q.rest.crater.cname) (i : Nat) :
    joinComma (Sources RunCfg.rtol c.thickness_min time df th i) ≠ "Ice" := by
  intro e
  have hS : ∀ n ∈ Sources RunCfg.rtol c.thickness_min time df th i, PlainName n := by
    intro n hnm
    unfold Sources at hnm
    obtain ⟨p, p1, rfl⟩ := List.mem_map.1 hnm
    have p1' : (p.1, p.2) ∈ df.zip th := List.mem_of_mem_filter p1
    exact hpl p.1 (List.of_mem_zip p1').1
  by_cases h0 : Sources RunCfg.rtol c.thickness_min time df th i = []
  · rw [h0] at e
    exact absurd e (by decide)
  · have hone := join_one h0 (fun n hn => (hS n hn).2.1) (by decide) e
    exact (hS "Ice" (by rw [hone]; simp)).2.2.1 rfl

/-- **C180** every run that returns, with plain names: a layer labelled `Ice` holds more ice than ejecta. -/
theorem C180_run (g : Gen σ) (hg : LawfulGen g) (c : RunCfg) (d : RunData) (hc : PhysicalCfg c)
    (hd : PhysicalData c d) (hl : Lunar c d) (hnd : c.coldtrap_names.Nodup)
    (hplain : ∀ r ∈ d.craters ++ d.basins, PlainName r.cname) (out : CsvOut) (hrun : runMain g c d = .ok out) :
    ∀ name ∈ c.coldtrap_names, ∃ table, out.strat.get name = .ok table ∧ ∀ r ∈ table, r.label = "Ice" →
      0 ≤ r.ejecta ∧ r.ejecta < r.ice ∧ ∃ p, r.icepct = some p ∧ 50 ≤ p ∧ p ≤ 100 := by
  obtain ⟨df, s, time, hdf, htime, hsteps⟩ := run_steps g hg c d hc hd hnd out hrun
  have hpl : ∀ q ∈ df, PlainName q.rest.crater.cname := by
    intro q hq
    obtain ⟨r, r1, r2⟩ := df_names g c d hd.sorted df _ _ hdf q hq
    rw [← r2]; exact hplain r r1
  intro name hn
  obtain ⟨trap, tm, tn, steps, table, a1, a2, a3, a4, a5, -, th, a7, a8, a9⟩ := hsteps name hn
  have a9 := a9 (fun r hr => plain_good (hplain r hr))
  refine ⟨table, a3, ?_⟩
  intro r hr hlab
  obtain ⟨h1, h2, h3, -⟩ := C180_table _ _ _ _ steps table (by
      intro st hst
      obtain ⟨i, hi⟩ := List.mem_iff_getElem?.1 hst
      rw [a9 i st hi]
      exact sources_not_ice hpl i) (by
      intro st hst
      obtain ⟨i, hi⟩ := List.mem_iff_getElem?.1 hst
      obtain ⟨p, _, e⟩ := a8 i st hi
      rw [e]
      apply List.sum_nonneg
      intro y hy
      obtain ⟨p, p1, rfl⟩ := List.mem_map.1 hy
      have p1' : (p.1, p.2) ∈ df.zip th := List.mem_of_mem_filter p1
      exact C85_row_ejecta_partial g c d hc hd.sorted hl df _ _ hdf name p.1 (List.of_mem_zip p1').1 p.2
        ((List.forall₂_iff_zip.1 a7).2 p1')) a5 r hr hlab
  exact ⟨h1, h2, h3⟩

/-- **C180** every run on the shipped files with the default ejecta scaling, whatever the seed: a layer labelled `Ice` is pure. -/
theorem C180_shipped (nk : List (ℝ × ℝ)) (sortAges : CraterTable → CraterTable) (sortNk : List (ℝ × ℝ) → List (ℝ × ℝ))
    (setOrder : List (List Char) → List (List Char)) (g : Gen σ) (hg : LawfulGen g) (hs : Spec.SortDesc sortAges) (c : RunCfg)
    (hc : PhysicalCfg c) (hd : PhysicalData c (shippedData nk sortAges sortNk setOrder))
    (hr : Runnable c (shippedData nk sortAges sortNk setOrder)) (he : c.ej = EjCfg.default)
    (hn : ∀ n ∈ c.coldtrap_names, n ∈ (RunCfg.default 1).coldtrap_names)
    (hmin' : c.thickness_min ≤ 0.001) :
    ∃ out, runMain g c (shippedData nk sortAges sortNk setOrder) = .ok out ∧
      ∀ name ∈ c.coldtrap_names, ∃ table, out.strat.get name = .ok table ∧ ∀ r ∈ table, r.label = "Ice" →
        r.ejecta = 0 ∧ 0 < r.ice ∧ r.icepct = some 100 := by
  obtain ⟨out, hout⟩ := C72_returns g hg c _ hc hd hr
  refine ⟨out, hout, ?_⟩
  obtain ⟨df, s, time, hdf, htime, hsteps⟩ := run_steps g hg c _ hc hd hr.nodup out hout
  have hpl : ∀ q ∈ df, PlainName q.rest.crater.cname := by
    intro q hq
    obtain ⟨r, r1, r2⟩ := df_names g c _ hd.sorted df _ _ hdf q hq
    rw [← r2]; exact shipped_plain _ _ _ _ r r1
  intro name hname
  obtain ⟨trap, tm, tn, steps, table, a1, a2, a3, a4, a5, -, th, a7, a8, a9⟩ := hsteps name hname
  have a9 := a9 (fun r hr => plain_good (shipped_plain _ _ _ _ r hr))
  refine ⟨table, a3, ?_⟩
  intro r hrm hlab
  have hall : ∀ p ∈ df.zip th, p.2 = 0 ∨ 0.001 < p.2 := by
    intro p hp
    have p1' : (p.1, p.2) ∈ df.zip th := hp
    obtain ⟨m1, m2⟩ := C113_thickness nk sortAges sortNk setOrder g hg hs c hc hd hr he hn df _ s hdf p.1
      (List.of_mem_zip p1').1 name hname p.2 ((List.forall₂_iff_zip.1 a7).2 p1')
    by_cases hin : InReach p.1.rest.crater.cname name
    · exact Or.inr (m1 hin)
    · exact Or.inl (m2 hin)
  have hnn : ∀ q : (CraterAge ℝ CraterCols × ℝ) → Bool, ∀ y ∈ ((df.zip th).filter q).map (·.2), 0 ≤ y := by
    intro q y hy
    obtain ⟨p, p1, rfl⟩ := List.mem_map.1 hy
    rcases hall p (List.mem_of_mem_filter p1) with h | h
    · exact h.ge
    · linarith
  obtain ⟨h1, h2, -, h4⟩ := C180_table _ _ _ _ steps table (by
      intro st hst
      obtain ⟨i, hi⟩ := List.mem_iff_getElem?.1 hst
      rw [a9 i st hi]
      exact sources_not_ice hpl i) (by
      intro st hst
      obtain ⟨i, hi⟩ := List.mem_iff_getElem?.1 hst
      obtain ⟨p, _, e⟩ := a8 i st hi
      rw [e]
      exact List.sum_nonneg (hnn _)) a5 r hrm hlab
  obtain ⟨h5, h6⟩ := h4 (by
    intro st hst hle
    obtain ⟨i, hi⟩ := List.mem_iff_getElem?.1 hst
    obtain ⟨p, _, e⟩ := a8 i st hi
    rw [e] at hle ⊢
    apply List.sum_eq_zero
    intro y hy
    have hy' := List.single_le_sum (hnn _) y hy
    obtain ⟨w, w1, rfl⟩ := List.mem_map.1 hy
    rcases hall w (List.mem_of_mem_filter w1) with h | h
    · exact h
    · exfalso
      linarith)
  exact ⟨h5, by linarith, h6⟩

/-- C180 holds for every seed of the default configuration. -/
example (seed : Int) := C180_shipped [] sortDesc id id constGen constGen_lawful sortDesc_spec
  (RunCfg.default seed) (default_physical seed) (default_data _ _ _ _ sortDesc_spec seed)
  (default_runnable _ _ _ _ seed) rfl (fun _ h => h) (by norm_num [RunCfg.default])

/-- C180 applies to every completed run of the default configuration. -/
example (seed : Int) (out : CsvOut)
    (hout : runMain constGen (RunCfg.default seed) (shippedData [] sortDesc id id) = .ok out) :=
  C180_run constGen constGen_lawful _ _ (default_physical seed) (default_data [] sortDesc id id sortDesc_spec seed)
    (default_lunar [] sortDesc id id seed) (default_runnable [] sortDesc id id seed).nodup
    (shipped_plain _ _ _ _) out hout

end MoonPIES
