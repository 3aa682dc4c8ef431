import Verif.Props.MainEjecta
import Verif.Props.StratLabels

/-!
# C78: layer labels of complete runs
-/

namespace MoonPIES

open Spec

variable {σ : Type}

theorem toSteps_get (time : List ℝ) (col : StratCol ℝ) (i : Nat) (s : Step ℝ)
    (h : (toSteps time col)[i]? = some s) :
    time[i]? = some s.time ∧ col.ice[i]? = some s.ice ∧ col.ej[i]? = some s.ejecta ∧
      col.src[i]? = some s.src := by
  unfold toSteps at h
  rw [List.getElem?_zipWith_eq_some] at h
  obtain ⟨t, p, h1, h2, rfl⟩ := h
  rw [List.getElem?_zip_eq_some, List.getElem?_zip_eq_some] at h2
  exact ⟨h1, h2.1, h2.2.1, h2.2.2⟩

theorem df_names (g : Gen σ) (c : RunCfg) (d : RunData) (hs : Spec.SortDesc d.sortAges)
    (df : CraterTable) (s s' : σ) (h : craterBasinList g c d s = .ok (df, s')) :
    ∀ r ∈ df, ∃ q ∈ d.craters ++ d.basins, q.cname = r.rest.crater.cname := by
  obtain ⟨z, mid, h3, h4⟩ := craterBasinList_inv g c d _ _ _ h
  intro r hr
  have hm : r ∈ mid := by
    rw [h4] at hr
    exact (hs mid).1.mem_iff.1 hr
  have hrest : r.rest ∈ (rawTable g c d s).map (·.rest) := by
    rw [← newAges_rest _ _ _ _ _ h3]; exact List.mem_map_of_mem hm
  obtain ⟨q, hq, e⟩ := List.mem_map.1 hrest
  obtain ⟨raw, hraw, b, icy, hq'⟩ := rawTable_mem g c d _ q hq
  refine ⟨raw, hraw, ?_⟩
  rw [← e, hq']
  rfl

open Classical in
/-- Spec: names, in table order, of the rows dated to time `i` that leave more than `tm` of ejecta;
`th` is the thickness of each row. -/
noncomputable def Spec.Sources (tol tm : ℝ) (time : List ℝ) (df : CraterTable) (th : List ℝ)
    (i : Nat) : List String :=
  ((df.zip th).filter (fun p => decide (InRange tol time p.1.age ∧ Nearest time p.1.age i ∧
    tm < p.2))).map (fun p => p.1.rest.crater.cname)

theorem ejecta_sources (tol tm : ℝ) (time : List ℝ) (df : CraterTable) (th : List ℝ)
    (hn : ∀ r ∈ df, GoodName r.rest.crater.cname) (o : List ℝ × List String)
    (h : ejectaThicknessTime tol tm time (ejRows df th) = .ok o) (i : Nat) (x : String)
    (hx : o.2[i]? = some x) : x = joinComma (Sources tol tm time df th i) := by
  classical
  have hne := (ejectaThicknessTime_ne h).1
  obtain ⟨a, b, e1, e2, e3⟩ := C17_source_labels tol tm time hne (ejRows df th) (by
    intro r hr
    unfold ejRows at hr
    rw [← List.map_uncurry_zip_eq_zipWith] at hr
    obtain ⟨p, hp, rfl⟩ := List.mem_map.1 hr
    exact hn p.1 (List.of_mem_zip hp).1)
  rw [h] at e1
  cases e1
  have hi : i < time.length := by rw [← e2]; exact (List.getElem?_eq_some_iff.1 hx).1
  rw [e3 i hi] at hx
  cases hx
  congr 1
  unfold ejRows Sources
  rw [← List.map_uncurry_zip_eq_zipWith, List.filter_map, List.map_map]
  rfl

open Classical in
/-- **C78** in every run that returns, the table of a cold trap consists of the timesteps in which
ice or ejecta thicker than `thickness_min` lies (and that are younger than the trap, with
`strat_after_age`), each named after all impacts dated to that time that leave more than
`thickness_min` of ejecta at the trap, merged where neighbours have one name. -/
theorem C78_run_table (g : Gen σ) (hg : LawfulGen g) (c : RunCfg) (d : RunData)
    (hc : PhysicalCfg c) (hd : PhysicalData c d) (hnd : c.coldtrap_names.Nodup)
    (hgood : ∀ r ∈ d.craters ++ d.basins, GoodName r.cname) (out : CsvOut)
    (hrun : runMain g c d = .ok out) :
    ∃ df s time, craterBasinList g c d (g.init c.seed) = .ok (df, s) ∧
      getTimeArray c.timestart c.timeend c.timestep = .ok time ∧
      ∀ name ∈ c.coldtrap_names, ∃ trap ∈ df, trap.rest.crater.cname = name ∧
        ∃ (ice ej : List ℝ) (table : List (StratRow ℝ)) (th : List ℝ) (steps : List (Step ℝ)),
          out.ice.get name = .ok ice ∧ out.ej.get name = .ok ej ∧
          out.strat.get name = .ok table ∧ List.Forall₂ (RowEjecta c df name) df th ∧
          steps.map (·.time) = time ∧ steps.map (·.ice) = ice ∧ steps.map (·.ejecta) = ej ∧
          (∀ (i : Nat) st, steps[i]? = some st →
            st.src = joinComma (Sources RunCfg.rtol c.thickness_min time df th i)) ∧
          ∃ top rows, IsMerge (top ++ rows) (table.map StratRow.row) ∧
            List.Forall₂ (RowOf c.thickness_min) (steps.filter (fun st => decide
              (Counted c.thickness_min RunCfg.rtol c.strat_after_age trap.age st))) rows ∧
            ((c.strat_after_age = false ∧ top = []) ∨ (c.strat_after_age = true ∧ ∃ t ∈ time,
              t < trap.age + |trap.age| * RunCfg.rtol ∧ top = [⟨t, 0, 0, "Formation age"⟩])) := by
  unfold runMain at hrun
  obtain ⟨st, hst, hrun⟩ := bind_ok_inv hrun
  obtain ⟨cols, hcols, hrun⟩ := bind_ok_inv hrun
  have hcols := liftPy_ok hcols
  obtain ⟨hne, hfmt⟩ := formatCsv_inv _ _ _ _ _ _ (liftPy_ok hrun)
  obtain ⟨s1, s2, dists, thick, h1, h2, h3, h4, h5, -⟩ := setup_inv g c d st hst
  obtain ⟨ejs, ice, e1, e2, e3⟩ := initStratCols_inv _ _ _ _ _ _ _ _ _ h5
  obtain ⟨b1, -⟩ := buildCols_spec _ _ _ _ _ _ hnd e3
  obtain ⟨cols', hc1, hc2⟩ := run_cols g hg hc hd hnd hne st hst
  rw [hc1] at hcols
  cases hcols
  obtain ⟨cols'', hc3, hc4⟩ := C09_run_only_loses Rounding.id ejShield c.impact_gardening_costello
    c.coldtrap_names st.cols st.overturn st.bsedDepth st.bsedFrac
    (setup_wellFormed g hg hc hd hnd hne st hst)
  have hc3 := hc1.symm.trans hc3
  cases hc3
  refine ⟨st.df, s1, st.time, h2, h1, ?_⟩
  intro name hn
  obtain ⟨j, hj⟩ := List.mem_iff_getElem?.1 hn
  obtain ⟨r, hr, hrn', col, table, t1, t2, t3, t4, t5⟩ := hfmt name hn
  obtain ⟨col0, col', k1, k2, k3, k4, k5, k6, k7⟩ := hc2 name hn
  rw [t1] at k2
  cases k2
  have hsrc := (get_forall₂ (fun p q h => h.1) hc4 k1 t1).2.2.1
  obtain ⟨e, f1, f2⟩ := b1 j name hj
  rw [Nat.zero_add] at f1 f2
  rw [k1] at f2
  injection f2 with f2
  obtain ⟨-, q⟩ := thickness_rows c st.df dists thick h3 h4 j name hj
  have hjl : j < c.coldtrap_names.length := (List.getElem?_eq_some_iff.1 hj).1
  obtain ⟨l5, i5⟩ := mapM_ok_inv _ _ _ e1
  obtain ⟨e', f3, f4⟩ := i5 j j (by rw [List.getElem?_range hjl])
  rw [f1] at f3
  cases f3
  obtain ⟨u1, u2, u3⟩ := toSteps_time st.time col k5 k6 k7
  refine ⟨r, hr, hrn', col.ice, col.ej, table, column thick j, toSteps st.time col, t3, t4, t5, q,
    u1, u2, u3, ?_, ?_⟩
  · intro i s hs
    obtain ⟨-, -, -, w⟩ := toSteps_get _ _ _ _ hs
    rw [hsrc, f2] at w
    refine ejecta_sources _ _ _ _ _ ?_ _ f4 i _ w
    intro r hr
    obtain ⟨q, q1, q2⟩ := df_names g c d hd.sorted _ _ _ h2 r hr
    rw [← q2]; exact hgood q q1
  · obtain ⟨top, rows, m1, m2, m3⟩ := C77_table _ _ _ _ _ _ t2
    refine ⟨top, rows, m1, m2, ?_⟩
    rcases m3 with m3 | ⟨m3, s, rest, m4, m5⟩
    · exact Or.inl m3
    · have hm : s ∈ (toSteps st.time col).filter
          (fun s => decide (s.time < r.age + |r.age| * RunCfg.rtol)) := by rw [m4]; simp
      obtain ⟨hm1, hm2⟩ := List.mem_filter.1 hm
      refine Or.inr ⟨m3, s.time, ?_, by simpa using hm2, m5⟩
      rw [← u1]; exact List.mem_map_of_mem hm1

/-- Each row of a merged table carries time and label of one of the merged rows. -/
theorem isMerge_mem {rows out : List (Row ℝ)} (h : IsMerge rows out) :
    ∀ o ∈ out, ∃ l ∈ rows, o.label = l.label ∧ o.time = l.time := by
  obtain ⟨bs, hb, hs⟩ := h
  intro o ho
  obtain ⟨i, hi⟩ := List.mem_iff_getElem?.1 ho
  have hil := (List.getElem?_eq_some_iff.1 hi).1
  have hl' : i < bs.length := by rw [hs.length_eq]; exact hil
  have := (List.forall₂_iff_get.1 hs).2 i hl' hil
  have e : out.get ⟨i, hil⟩ = o := (List.getElem?_eq_some_iff.1 hi).2
  rw [e] at this
  obtain ⟨-, -, l, hl, e1, e2⟩ := this
  refine ⟨l, ?_, e1, e2⟩
  rw [← hb.flatten, List.mem_flatten]
  exact ⟨_, List.get_mem _ _, List.mem_of_getLast? hl⟩

/-- **C78** reading a layer of a run: it is the formation row, or its name is the list of all
impacts dated to its time that leave more than `thickness_min` at the trap, or there is no such
impact and it is called "Minor source(s)" or "Ice" according to whether their ejecta together
exceeds `thickness_min`. -/
theorem C78_run_labels (g : Gen σ) (hg : LawfulGen g) (c : RunCfg) (d : RunData)
    (hc : PhysicalCfg c) (hd : PhysicalData c d) (hnd : c.coldtrap_names.Nodup)
    (hgood : ∀ r ∈ d.craters ++ d.basins, GoodName r.cname) (out : CsvOut)
    (hrun : runMain g c d = .ok out) :
    ∃ df s time, craterBasinList g c d (g.init c.seed) = .ok (df, s) ∧
      getTimeArray c.timestart c.timeend c.timestep = .ok time ∧
      ∀ name ∈ c.coldtrap_names, ∃ (ice ej : List ℝ) (table : List (StratRow ℝ)) (th : List ℝ),
        out.ice.get name = .ok ice ∧ out.ej.get name = .ok ej ∧ out.strat.get name = .ok table ∧
        List.Forall₂ (RowEjecta c df name) df th ∧
        ∀ r ∈ table, (c.strat_after_age = true ∧ r.label = "Formation age") ∨
          ∃ (i : Nat) (x y : ℝ), time[i]? = some r.time ∧ ice[i]? = some x ∧ ej[i]? = some y ∧
            ((c.thickness_min < y ∧ Sources RunCfg.rtol c.thickness_min time df th i ≠ [] ∧
              r.label = joinComma (Sources RunCfg.rtol c.thickness_min time df th i)) ∨
            (c.thickness_min < y ∧ Sources RunCfg.rtol c.thickness_min time df th i = [] ∧
              r.label = "Minor source(s)") ∨
            (y ≤ c.thickness_min ∧ c.thickness_min < x ∧ r.label = "Ice")) := by
  obtain ⟨df, s, time, h1, h2, h3⟩ := C78_run_table g hg c d hc hd hnd hgood out hrun
  refine ⟨df, s, time, h1, h2, ?_⟩
  intro name hn
  obtain ⟨trap, htm, htn, ice, ej, table, th, steps, a1, a2, a3, a4, a5, a6, a7, a8, top, rows,
    b1, b2, b3⟩ := h3 name hn
  refine ⟨ice, ej, table, th, a1, a2, a3, a4, ?_⟩
  intro r hr
  obtain ⟨l, hl, e1, e2⟩ := isMerge_mem b1 r.row (List.mem_map_of_mem hr)
  change r.label = l.label at e1
  change r.time = l.time at e2
  rcases List.mem_append.1 hl with hm | hm
  · rcases b3 with ⟨-, rfl⟩ | ⟨b3, t, -, -, rfl⟩
    · simp at hm
    · rw [List.mem_singleton] at hm
      exact Or.inl ⟨b3, by rw [e1, hm]⟩
  · right
    obtain ⟨j, hj⟩ := List.mem_iff_getElem?.1 hm
    have hjl := (List.getElem?_eq_some_iff.1 hj).1
    obtain ⟨st, hsm, hrow⟩ : ∃ st ∈ steps, RowOf c.thickness_min st l := by
      have hj' := b2.length_eq ▸ hjl
      have := (List.forall₂_iff_get.1 b2).2 j hj' hjl
      have e : rows.get ⟨j, hjl⟩ = l := (List.getElem?_eq_some_iff.1 hj).2
      rw [e] at this
      exact ⟨_, (List.mem_filter.1 (List.get_mem _ ⟨j, hj'⟩)).1, this⟩
    obtain ⟨i, hi⟩ := List.mem_iff_getElem?.1 hsm
    obtain ⟨t1, -, -, hlab⟩ := hrow
    have hsrc := a8 i st hi
    refine ⟨i, st.ice, st.ejecta, ?_, ?_, ?_, ?_⟩
    · rw [← a5, List.getElem?_map, hi, e2, t1]; rfl
    · rw [← a6, List.getElem?_map, hi]; rfl
    · rw [← a7, List.getElem?_map, hi]; rfl
    · rw [e1]
      rcases hlab with ⟨q1, q2, q3⟩ | ⟨q1, q2, q3⟩ | ⟨q1, q2, q3⟩
      · refine Or.inl ⟨q1, ?_, by rw [q3, hsrc]⟩
        intro hnil
        rw [hnil] at hsrc
        exact q2 hsrc
      · refine Or.inr (Or.inl ⟨q1, ?_, q3⟩)
        by_contra hnil
        have hgn : GoodName (joinComma (Sources RunCfg.rtol c.thickness_min time df th i)) := by
          apply join_good _ hnil
          intro n hn
          unfold Sources at hn
          obtain ⟨p, hp, rfl⟩ := List.mem_map.1 hn
          have hp := (List.of_mem_zip (List.mem_filter.1 hp).1).1
          obtain ⟨q, q1, q2⟩ := df_names g c d hd.sorted _ _ _ h1 p.1 hp
          rw [← q2]; exact hgood q q1
        rw [← hsrc, q2] at hgn
        obtain ⟨u, v, w, -⟩ := hgn
        simp at w
      · exact Or.inr (Or.inr ⟨q1, q2, q3⟩)

/-- A checkable form of `GoodName`. -/
def goodNameB (s : String) : Bool :=
  match s.toList.getLast? with
  | none => false
  | some c => decide (c ≠ ',')

theorem goodNameB_spec {s : String} (h : goodNameB s = true) : GoodName s := by
  unfold goodNameB at h
  split at h
  · cases h
  · next c hc =>
    obtain ⟨init, hi⟩ := List.getLast?_eq_some_iff.1 hc
    exact ⟨init, c, hi, by simpa using h⟩

theorem shipped_good : ∀ r ∈ craterFile ++ basinFile, goodNameB r.cname = true := by
  decide +kernel

/-- C78 applies to the shipped configuration and data. -/
example : ∃ out, runMain constGen (RunCfg.default 1) (shippedData [] sortDesc id id) = .ok out ∧
    ∀ r ∈ (shippedData [] sortDesc id id).craters ++ (shippedData [] sortDesc id id).basins,
      GoodName r.cname := by
  obtain ⟨⟨out, h⟩, -⟩ := C74_default_returns [] sortDesc id id constGen constGen_lawful
    sortDesc_spec 1
  refine ⟨out, h, ?_⟩
  intro r hr
  obtain ⟨q, hq, rfl⟩ := shipped_rows _ _ _ _ hr
  exact goodNameB_spec (shipped_good q hq)

end MoonPIES
