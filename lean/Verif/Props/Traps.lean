import Verif.Lemmas.Traps
import Verif.Props.ImpactRun

/-!
# C129: which other cold traps are simulated
-/

namespace MoonPIES

open Spec

variable {σ : Type}

theorem update_keeps_ej (fl : ℝ → ℝ) (shield : ℝ) (costello : Bool) (names : List String)
    (hnd : names.Nodup) (bd bf : List (List ℝ)) {j : Nat} {name : String} (hj : names[j]? = some name) :
    ∀ (ovs : List ℝ) (t : Nat) (cols cols' : PyDict (StratCol ℝ)) (c : StratCol ℝ),
      updateStratColsFrom fl shield costello names bd bf t ovs cols = .ok cols' →
      cols.get name = .ok c → ∃ c', cols'.get name = .ok c' ∧ c'.ej = c.ej ∧ c'.src = c.src := by
  intro ovs
  induction ovs with
  | nil => intro t cols cols' c h hc; cases h; exact ⟨c, hc, rfl, rfl⟩
  | cons ov rest ih =>
    intro t cols cols' c h hc
    obtain ⟨mid, h1, h2⟩ := updateFrom_cons h
    obtain ⟨c₁, d, f, ice, g1, g2, g3, g4, g5⟩ := updateTraps_get hnd hj h1
    rw [hc] at g1; cases g1
    obtain ⟨c', k1, k2, k3⟩ := ih (t + 1) mid cols' _ h2 g5
    exact ⟨c', k1, k2, k3⟩

theorem zipWith_names_sublist : ∀ (rs : List RawCrater) (icy : List String),
    List.Sublist ((List.zipWith (fun r i => readRow true i r) rs icy).map
      ((fun r : CraterCols => r.crater.cname) ∘ fun r : CraterAge ℝ CraterCols => r.rest))
      (rs.map (·.cname))
  | [], _ => by simp
  | _ :: _, [] => by simp
  | r :: rs, i :: icy => by
    rw [List.zipWith_cons_cons, List.map_cons, List.map_cons]
    exact List.Sublist.cons_cons _ (zipWith_names_sublist rs icy)

theorem unique_row {α : Type} {f : α → String} {n : String} {l : List α} (h : (l.map f).count n ≤ 1)
    {a b : α} (ha : a ∈ l) (hfa : f a = n) (hb : b ∈ l) (hfb : f b = n) : a = b := by
  rw [List.count, List.countP_map, List.countP_eq_length_filter] at h
  have ma : a ∈ l.filter ((fun x => x == n) ∘ f) := List.mem_filter.2 ⟨ha, by simp [hfa]⟩
  have mb : b ∈ l.filter ((fun x => x == n) ∘ f) := List.mem_filter.2 ⟨hb, by simp [hfb]⟩
  obtain ⟨m, hm⟩ : ∃ m, m = l.filter ((fun x => x == n) ∘ f) := ⟨_, rfl⟩
  rw [← hm] at h ma mb
  match m, h, ma, mb with
  | [x], _, ma, mb => rw [List.mem_singleton.1 ma, List.mem_singleton.1 mb]

/-- **C129** (before the loop) What a cold trap starts with does not depend on the other cold
traps: the crater table, the times, the overturn depths, its delivered ice, its ejecta with their
sources and its sedimentation depths are the same; with sedimentation off so are the fractions
lost. -/
theorem C129_setup (g : Gen σ) (c : RunCfg) (d : RunData) (ns : List String)
    (hnd : c.coldtrap_names.Nodup) (hnd' : ns.Nodup) (st st' : Setup σ) (h : setup g c d = .ok st)
    (h' : setup g (withTraps c ns) d = .ok st') :
    st'.time = st.time ∧ st'.df = st.df ∧ st'.overturn = st.overturn ∧
    ∀ (j j' : Nat) name, c.coldtrap_names[j]? = some name → ns[j']? = some name →
      (∃ col, st.cols.get name = .ok col ∧ st'.cols.get name = .ok col) ∧
      colOf j' st'.bsedDepth = colOf j st.bsedDepth ∧
      (c.ballistic_sed = false → colOf j' st'.bsedFrac = colOf j st.bsedFrac) := by
  obtain ⟨s1, s2, dists, thick, a1, a2, a3, a4, a5, a6, a7⟩ := setup_inv g c d st h
  obtain ⟨s1', s2', dists', thick', b1, b2, b3, b4, b5, b6, b7⟩ := setup_inv g _ _ st' h'
  have ht : st'.time = st.time := by
    have : Except.ok st'.time = (Except.ok st.time : Except PyErr _) := b1.symm.trans a1
    injection this
  have hdf : (Except.ok (st'.df, s1') : Except PyErr _) = .ok (st.df, s1) := b2.symm.trans a2
  injection hdf with hdf
  injection hdf with hdf hs
  refine ⟨ht, hdf, by rw [a7, b7, ht]; rfl, ?_⟩
  rw [ht, hdf] at b5 b6
  rw [hdf] at b3 b4
  rw [hs] at b5
  intro j j' name hj hj'
  have hcd : column dists' j' = column dists j := colDists a3 b3 hj hj'
  have hct : column thick' j' = column thick j := colThick a3 b3 a4 b4 hj hj'
  obtain ⟨ej, ice, a8, a9, a10⟩ := initStratCols_inv _ _ _ _ _ _ _ _ _ a5
  obtain ⟨ej', ice', b8, b9, b10⟩ := initStratCols_inv _ _ _ _ _ _ _ _ _ b5
  have hjl : j < c.coldtrap_names.length := (List.getElem?_eq_some_iff.1 hj).1
  have hjl' : j' < ns.length := (List.getElem?_eq_some_iff.1 hj').1
  obtain ⟨e, e1, e2⟩ := (buildCols_spec _ _ _ _ _ _ hnd a10).1 j name hj
  obtain ⟨e', e1', e2'⟩ := (buildCols_spec _ _ _ _ _ _ hnd' b10).1 j' name hj'
  rw [Nat.zero_add] at e1 e2 e1' e2'
  obtain ⟨f, f1, f2⟩ := (mapM_ok_inv _ _ _ a8).2 j j (List.getElem?_range hjl)
  obtain ⟨f', f1', f2'⟩ := (mapM_ok_inv _ _ _ b8).2 j' j' (List.getElem?_range hjl')
  rw [e1] at f1
  injection f1 with f1
  rw [e1'] at f1'
  injection f1' with f1'
  subst f1 f1'
  have hee : e' = e := by
    rw [hct] at f2'
    have : Except.ok e' = (Except.ok e : Except PyErr _) := f2'.symm.trans f2
    injection this
  obtain ⟨hne, -, -⟩ := ejectaThicknessTime_ne f2
  have hice : column ice' j' = column ice j := by
    unfold iceCols at a9 b9
    obtain ⟨⟨polar, p1⟩, q1, a9⟩ := bind_ok_inv a9
    obtain ⟨⟨polar', p1'⟩, q1', b9⟩ := bind_ok_inv b9
    rw [polarIce_traps, q1] at q1'
    injection q1' with q1'
    injection q1' with q1' q2'
    subst q1' q2'
    obtain ⟨volc, v1, a9⟩ := bind_ok_inv a9
    obtain ⟨volc', v1', b9⟩ := bind_ok_inv b9
    have hv : Except.ok volc' = (Except.ok volc : Except PyErr _) := v1'.symm.trans v1
    injection hv with hv
    subst hv
    obtain ⟨rows, r1, a9⟩ := bind_ok_inv a9
    obtain ⟨rows', r1', b9⟩ := bind_ok_inv b9
    injection a9 with a9
    injection a9 with a9 _
    injection b9 with b9
    injection b9 with b9 _
    subst a9 b9
    obtain ⟨pv, b, w1, w2, w3⟩ := iceColsTime_col r1 hj
    obtain ⟨pv', b', w1', w2', w3'⟩ := iceColsTime_col r1' hj'
    have hpv : Except.ok pv' = (Except.ok pv : Except PyErr _) := w1'.symm.trans w1
    injection hpv with hpv
    subst hpv
    rw [w3, w3']
    have hm : (withTraps c ns).cols.ballistic_hop_moores = c.cols.ballistic_hop_moores := rfl
    have hb : (withTraps c ns).cols.ballistic_hop_effcy = c.cols.ballistic_hop_effcy := rfl
    rw [hm] at w2' ⊢
    rw [hb]
    cases hmo : c.cols.ballistic_hop_moores with
    | false => simp
    | true =>
      have hbb := (w2' hmo).symm.trans (w2 hmo)
      injection hbb with hbb
      rw [hbb]
  refine ⟨⟨_, e2, ?_⟩, ?_⟩
  · rw [e2', hice, hee]
  obtain ⟨dep, fr, x1, x2, x3, x4⟩ := bsedArrays_col hne a6 hjl
  obtain ⟨dep', fr', x1', x2', x3', x4'⟩ := bsedArrays_col hne b6 hjl'
  rw [x1, x2, x1', x2']
  rw [hct, hcd] at x4'
  cases hb : c.ballistic_sed with
  | false =>
    rw [(x3 hb).1, (x3 hb).2, (x3' hb).1, (x3' hb).2]
    exact ⟨rfl, fun _ => rfl⟩
  | true =>
    refine ⟨?_, fun h => absurd h Bool.noConfusion⟩
    obtain ⟨o1, o2, y1, y2, rfl⟩ := x4 hb
    obtain ⟨o1', o2', y1', y2', rfl⟩ := x4' hb
    have h1 : Except.ok o1' = (Except.ok o1 : Except PyErr _) := y1'.symm.trans y1
    have h2 : Except.ok o2' = (Except.ok o2 : Except PyErr _) := y2'.symm.trans y2
    injection h1 with h1
    injection h2 with h2
    rw [h1, h2]

/-- **C129** (ejecta) The ejecta of a cold trap in a complete run do not depend on which other cold
traps are simulated. -/
theorem C129_ejecta (g : Gen σ) (c : RunCfg) (d : RunData) (ns : List String)
    (hnd : c.coldtrap_names.Nodup) (hnd' : ns.Nodup) (out out' : CsvOut)
    (h : runMain g c d = .ok out) (h' : runMain g (withTraps c ns) d = .ok out') (name : String)
    (hn : name ∈ c.coldtrap_names) (hn' : name ∈ ns) : ∃ ej, out.ej.get name = .ok ej ∧
      out'.ej.get name = .ok ej := by
  unfold runMain at h h'
  obtain ⟨st, s1, h⟩ := bind_ok_inv h
  obtain ⟨cols, c1, h⟩ := bind_ok_inv h
  obtain ⟨st', s1', h'⟩ := bind_ok_inv h'
  obtain ⟨cols', c1', h'⟩ := bind_ok_inv h'
  obtain ⟨-, -, -, k4⟩ := C129_setup g c d ns hnd hnd' st st' s1 s1'
  obtain ⟨j, hj⟩ := List.mem_iff_getElem?.1 hn
  obtain ⟨j', hj'⟩ := List.mem_iff_getElem?.1 hn'
  obtain ⟨⟨col, e1, e2⟩, -⟩ := k4 j j' name hj hj'
  obtain ⟨col1, u1, u2, -⟩ := update_keeps_ej _ _ _ _ hnd _ _ hj _ _ _ _ _ (liftPy_ok c1) e1
  obtain ⟨col1', u1', u2', -⟩ := update_keeps_ej _ _ _ _ hnd' _ _ hj' _ _ _ _ _ (liftPy_ok c1') e2
  obtain ⟨-, r, -, -, q, table, t1, -, -, t4, -⟩ := And.imp_right (fun f => f name hn)
    (formatCsv_inv _ _ _ _ _ _ (liftPy_ok h))
  obtain ⟨-, r', -, -, q', table', t1', -, -, t4', -⟩ := And.imp_right (fun f => f name hn')
    (formatCsv_inv _ _ _ _ _ _ (liftPy_ok h'))
  rw [u1] at t1
  injection t1 with t1
  subst t1
  rw [u1'] at t1'
  injection t1' with t1'
  subst t1'
  refine ⟨_, t4, ?_⟩
  rw [t4', u2', u2]

/-- Two runs that start a cold trap alike and lose the same fractions treat it alike. -/
theorem run_trap_same (g : Gen σ) (c : RunCfg) (d : RunData) (ns : List String)
    (hsort : SortDesc d.sortAges) (hnd : c.coldtrap_names.Nodup) (hnd' : ns.Nodup)
    (out out' : CsvOut) (h : runMain g c d = .ok out)
    (h' : runMain g (withTraps c ns) d = .ok out') (name : String) (hn : name ∈ c.coldtrap_names)
    (hn' : name ∈ ns) (honce : ((d.craters ++ d.basins).map (·.cname)).count name ≤ 1)
    (hfrac : ∀ st st', setup g c d = .ok st → setup g (withTraps c ns) d = .ok st' →
      ∀ (j j' : Nat), c.coldtrap_names[j]? = some name → ns[j']? = some name →
        colOf j' st'.bsedFrac = colOf j st.bsedFrac) :
    ∃ ice ej table, out.ice.get name = .ok ice ∧ out'.ice.get name = .ok ice ∧
      out.ej.get name = .ok ej ∧ out'.ej.get name = .ok ej ∧ out.strat.get name = .ok table ∧
      out'.strat.get name = .ok table := by
  unfold runMain at h h'
  obtain ⟨st, s1, h⟩ := bind_ok_inv h
  obtain ⟨cols, c1, h⟩ := bind_ok_inv h
  obtain ⟨st', s1', h'⟩ := bind_ok_inv h'
  obtain ⟨cols', c1', h'⟩ := bind_ok_inv h'
  obtain ⟨k1, k2, k3, k4⟩ := C129_setup g c d ns hnd hnd' st st' s1 s1'
  obtain ⟨j, hj⟩ := List.mem_iff_getElem?.1 hn
  obtain ⟨j', hj'⟩ := List.mem_iff_getElem?.1 hn'
  obtain ⟨⟨col, e1, e2⟩, e3, -⟩ := k4 j j' name hj hj'
  obtain ⟨col1, u1, u2⟩ := C11_trap_alone _ _ _ _ hnd _ _ _ _ _ (liftPy_ok c1) j name hj col e1
  obtain ⟨col1', u1', u2'⟩ := C11_trap_alone _ _ _ _ hnd' _ _ _ _ _ (liftPy_ok c1') j' name hj' col e2
  rw [e3, hfrac st st' s1 s1' j j' hj hj', k3] at u2'
  have hcc : Except.ok [(name, col1')] = (Except.ok [(name, col1)] : Except PyErr _) :=
    u2'.symm.trans u2
  injection hcc with hcc
  injection hcc with hcc _
  injection hcc with _ hcc
  subst hcc
  obtain ⟨-, r, hr, hrn, q, table, t1, t2, t3, t4, t5⟩ := And.imp_right (fun f => f name hn)
    (formatCsv_inv _ _ _ _ _ _ (liftPy_ok h))
  obtain ⟨-, r', hr', hrn', q', table', t1', t2', t3', t4', t5'⟩ := And.imp_right (fun f => f name hn')
    (formatCsv_inv _ _ _ _ _ _ (liftPy_ok h'))
  rw [u1] at t1
  injection t1 with t1
  subst t1
  rw [u1'] at t1'
  injection t1' with t1'
  subst t1'
  rw [k2] at hr'
  obtain ⟨s, s2, dists, thick, -, a2, -⟩ := setup_inv g c d st s1
  have hp := (run_rest g c d hsort _ _ _ a2).map (fun r => r.crater.cname)
  rw [List.map_map, List.map_map] at hp
  have hcount : (st.df.map (fun r => r.rest.crater.cname)).count name ≤ 1 := by
    have h1 := hp.count_eq name
    rw [show (st.df.map (fun r => r.rest.crater.cname)).count name = _ from h1]
    refine le_trans (List.Sublist.count_le name ?_) honce
    unfold rawTable
    rw [List.map_append, List.map_append, List.map_map]
    refine List.Sublist.append ?_ (zipWith_names_sublist _ _)
    exact List.Sublist.refl _
  obtain rfl := unique_row hcount hr hrn hr' hrn'
  rw [k1] at t2'
  have htt : Except.ok table' = (Except.ok table : Except PyErr _) := t2'.symm.trans t2
  injection htt with htt
  subst htt
  exact ⟨_, _, _, t3, t3', t4, t4', t5, t5'⟩

/-- **C129** (what holds of the runs) Without ballistic sedimentation, a complete run gives a cold
trap the same ice, ejecta and table whatever other cold traps it simulates and in whatever order.
The restriction to runs without sedimentation is needed, see `C129_refuted`. -/
theorem C129_run_partial (g : Gen σ) (c : RunCfg) (d : RunData) (ns : List String)
    (hsort : SortDesc d.sortAges) (hnd : c.coldtrap_names.Nodup) (hnd' : ns.Nodup)
    (hsed : c.ballistic_sed = false) (out out' : CsvOut) (h : runMain g c d = .ok out)
    (h' : runMain g (withTraps c ns) d = .ok out') (name : String) (hn : name ∈ c.coldtrap_names)
    (hn' : name ∈ ns) (honce : ((d.craters ++ d.basins).map (·.cname)).count name ≤ 1) :
    ∃ ice ej table, out.ice.get name = .ok ice ∧ out'.ice.get name = .ok ice ∧
      out.ej.get name = .ok ej ∧ out'.ej.get name = .ok ej ∧ out.strat.get name = .ok table ∧
      out'.strat.get name = .ok table := by
  exact run_trap_same g c d ns hsort hnd hnd' out out' h h' name hn hn' honce
    (fun st st' s1 s1' j j' hj hj' =>
      ((C129_setup g c d ns hnd hnd' st st' s1 s1').2.2.2 j j' name hj hj').2.2 hsed)

end MoonPIES
