import Verif.Props.Rename
import Verif.Props.MainPhysical
import Verif.Props.LeftOut
import Verif.Props.CannonRun
import Verif.Props.Products

/-!
# C172: what the least thickness of a layer changes
-/

namespace MoonPIES

open Spec

section
variable {K : Type} [Field K] [LinearOrder K] [IsStrictOrderedRing K]

/-- Timesteps with the same times and thicknesses, whatever their sources. -/
def SameThickness (s t : Step K) : Prop := s.time = t.time ∧ s.ice = t.ice ∧ s.ejecta = t.ejecta

open Classical in
theorem counted_mono {m m' tol age : K} {saa : Bool} (hm : m ≤ m') {steps steps' : List (Step K)}
    (h : List.Forall₂ SameThickness steps steps') (hpos : ∀ s ∈ steps, 0 ≤ s.ice ∧ 0 ≤ s.ejecta) :
    ((steps'.filter (fun s => decide (Counted m' tol saa age s))).map (·.ice)).sum ≤
      ((steps.filter (fun s => decide (Counted m tol saa age s))).map (·.ice)).sum ∧
    ((steps'.filter (fun s => decide (Counted m' tol saa age s))).map (·.ejecta)).sum ≤
      ((steps.filter (fun s => decide (Counted m tol saa age s))).map (·.ejecta)).sum := by
  induction h with
  | nil => simp
  | @cons s t l l' hst _ ih =>
    obtain ⟨i1, i2⟩ := ih (fun x hx => hpos x (List.mem_cons_of_mem _ hx))
    obtain ⟨p1, p2⟩ := hpos s List.mem_cons_self
    obtain ⟨e1, e2, e3⟩ := hst
    rw [List.filter_cons, List.filter_cons]
    by_cases h1 : Counted m' tol saa age t
    · have h2 : Counted m tol saa age s := by
        unfold Counted at h1 ⊢
        rw [e1, e2, e3]
        exact ⟨h1.1.imp (fun h => lt_of_le_of_lt hm h) (fun h => lt_of_le_of_lt hm h), h1.2⟩
      rw [if_pos (decide_eq_true h1), if_pos (decide_eq_true h2)]
      simp only [List.map_cons, List.sum_cons]
      exact ⟨by rw [e2]; linarith, by rw [e3]; linarith⟩
    · rw [if_neg (by simpa using h1)]
      split
      · simp only [List.map_cons, List.sum_cons]
        exact ⟨by linarith, by linarith⟩
      · exact ⟨i1, i2⟩

/-- **C172** A larger least thickness never shows more ice or more ejecta of the same column. -/
theorem C172_totals [FloorRing K] {m m' tol age : K} {saa : Bool} (hm : m ≤ m') {steps steps' : List (Step K)}
    (h : List.Forall₂ SameThickness steps steps') (hpos : ∀ s ∈ steps, 0 ≤ s.ice ∧ 0 ≤ s.ejecta)
    (out out' : List (StratRow K)) (ho : makeStratCol m tol saa age steps = .ok out)
    (ho' : makeStratCol m' tol saa age steps' = .ok out') :
    (out'.map (·.ice)).sum ≤ (out.map (·.ice)).sum ∧ (out'.map (·.ejecta)).sum ≤ (out.map (·.ejecta)).sum := by
  obtain ⟨a1, a2⟩ := C21_accounting m tol age saa steps out ho
  obtain ⟨b1, b2⟩ := C21_accounting m' tol age saa steps' out' ho'
  obtain ⟨c1, c2⟩ := counted_mono (tol := tol) (age := age) (saa := saa) hm h hpos
  rw [a1, a2, b1, b2]
  exact ⟨c1, c2⟩

end

/-- **C172** but it may show more layers: ice under thin ejecta becomes a layer of its own. -/
theorem C172_more_layers :
    (makeStratCol (K := ℚ) (1 / 10) 0 false 0 [⟨2, 3, 5, "Faustini"⟩, ⟨1, 4, 1 / 5, "Faustini"⟩]).map
        (List.map (fun r => (r.label, r.ice, r.ejecta))) = .ok [("Faustini", 7, 26 / 5)] ∧
    (makeStratCol (K := ℚ) (1 / 2) 0 false 0 [⟨2, 3, 5, "Faustini"⟩, ⟨1, 4, 1 / 5, ""⟩]).map
        (List.map (fun r => (r.label, r.ice, r.ejecta))) = .ok [("Faustini", 3, 5), ("Ice", 4, 1 / 5)] := by
  decide +kernel

/-! ## Runs -/

variable {σ : Type}

theorem ejectaThicknessTime_threshold (tol m m' : ℝ) (time : List ℝ) (rows : List (EjRow ℝ)) :
    ExRel (fun p q => p.1 = q.1 ∧ List.Forall₂ (fun _ _ => True) p.2 q.2)
      (ejectaThicknessTime tol m time rows) (ejectaThicknessTime tol m' time rows) := by
  unfold ejectaThicknessTime
  refine (ExRel.of_eq rfl).bind fun p q hpq => ?_
  refine (ages2time_rel (R := fun _ _ => True) (S := fun _ _ => True) _ _ (fun _ _ _ _ _ _ => trivial) tol time
    (l := rows.map (fun r => (r.age, if r.thick > m then r.cname ++ "," else "")))
    (m := rows.map (fun r => (r.age, if r.thick > m' then r.cname ++ "," else ""))) ?_ trivial).bind fun a b hab => ?_
  · rw [List.forall₂_map_left_iff, List.forall₂_map_right_iff]
    exact List.forall₂_same.2 fun r _ => ⟨rfl, trivial⟩
  · refine ⟨hpq, ?_⟩
    rw [List.forall₂_map_left_iff, List.forall₂_map_right_iff]
    exact hab

theorem makeStratCol_threshold (m m' tol : ℝ) (after : Bool) (age : ℝ) {s t : List (Step ℝ)}
    (h : s.map (·.time) = t.map (·.time)) :
    ExRel (fun _ _ => True) (makeStratCol m tol after age s) (makeStratCol m' tol after age t) := by
  unfold makeStratCol
  cases after with
  | false => exact trivial
  | true =>
    simp only [if_true]
    have key : ∀ (m : ℝ) (l : List (Step ℝ)), ((labelRows m l).filter
        (fun r => decide (r.2.time < age + rtolAbs age tol))).length =
        ((l.map (·.time)).filter (fun x => decide (x < age + rtolAbs age tol))).length := by
      intro m l
      unfold labelRows
      rw [List.filter_map, List.filter_map, List.length_map, List.length_map]
      rfl
    have hlen := (key m s).trans ((congrArg (fun l => (l.filter
      (fun x => decide (x < age + rtolAbs age tol))).length) h).trans (key m' t).symm)
    unfold cutAtAge
    cases h1 : (labelRows m s).filter (fun r => decide (r.2.time < age + rtolAbs age tol)) with
    | nil =>
      cases h2 : (labelRows m' t).filter (fun r => decide (r.2.time < age + rtolAbs age tol)) with
      | nil => exact rfl
      | cons a l => rw [h1, h2] at hlen; simp at hlen
    | cons a l =>
      cases h2 : (labelRows m' t).filter (fun r => decide (r.2.time < age + rtolAbs age tol)) with
      | nil => rw [h1, h2] at hlen; simp at hlen
      | cons b m => exact trivial

/-- Two tables of the same column with two least thicknesses. -/
def TwoTables (c : RunCfg) (m : ℝ) (time : List ℝ) (ice ej : List ℝ) (t t' : List (StratRow ℝ)) : Prop :=
  ∃ (age : ℝ) (a b : StratCol ℝ), a.ice = ice ∧ a.ej = ej ∧ SameCol (fun _ _ => True) a b ∧
    makeStratCol c.thickness_min RunCfg.rtol c.strat_after_age age (toSteps time a) = .ok t ∧
    makeStratCol m RunCfg.rtol c.strat_after_age age (toSteps time b) = .ok t'

/-- Results with the same columns, and tables of these columns with two least thicknesses. -/
def TwoOuts (c : RunCfg) (m : ℝ) (time : List ℝ) (o o' : CsvOut) : Prop :=
  o.ice = o'.ice ∧ o.ej = o'.ej ∧ ∀ n t t', o.strat.get n = .ok t → o'.strat.get n = .ok t' →
    ∃ ice ej, o.ice.get n = .ok ice ∧ o.ej.get n = .ok ej ∧ TwoTables c m time ice ej t t'

theorem formatLoop_threshold (c : RunCfg) (m : ℝ) (time : List ℝ) {x y : PyDict (StratCol ℝ)}
    (h : DictRel (SameCol fun _ _ => True) x y) : ∀ (ages : List (String × ℝ)) {p q : CsvOut × List (List String)},
    TwoOuts c m time p.1 q.1 → p.2.length = q.2.length →
    ExRel (fun p q => TwoOuts c m time p.1 q.1 ∧ p.2.length = q.2.length) (formatLoop c time x ages p)
      (formatLoop { c with thickness_min := m } time y ages q)
  | [], _, _, h1, h2 => ⟨h1, h2⟩
  | (n, age) :: ages, (o, s), (o', s'), h1, h2 => by
    unfold formatLoop
    refine (h.get n).bind fun a b hab => ?_
    have hq : ExRel (fun t t' => TwoTables c m time a.ice a.ej t t')
        (makeStratCol c.thickness_min RunCfg.rtol c.strat_after_age age (toSteps time a))
        (makeStratCol m RunCfg.rtol c.strat_after_age age (toSteps time b)) := by
      have hr := makeStratCol_threshold c.thickness_min m RunCfg.rtol c.strat_after_age age (toSteps_times time hab)
      cases e1 : makeStratCol c.thickness_min RunCfg.rtol c.strat_after_age age (toSteps time a) with
      | error e =>
        cases e2 : makeStratCol m RunCfg.rtol c.strat_after_age age (toSteps time b) with
        | error e' => rw [e1, e2] at hr; exact hr
        | ok t' => rw [e1, e2] at hr; exact hr.elim
      | ok t =>
        cases e2 : makeStratCol m RunCfg.rtol c.strat_after_age age (toSteps time b) with
        | error e' => rw [e1, e2] at hr; exact hr.elim
        | ok t' => exact ⟨age, a, b, rfl, rfl, hab, e1, e2⟩
    refine ExRel.bind hq fun t t' ht => ?_
    refine formatLoop_threshold c m time h ages ?_ ?_
    · obtain ⟨e1, e2, e3⟩ := h1
      have e1 : o.ice = o'.ice := e1
      have e2 : o.ej = o'.ej := e2
      refine ⟨by simp only [e1, hab.1], by simp only [e2, hab.2.1], ?_⟩
      intro k u u' hu hu'
      simp only at hu hu' ⊢
      by_cases hk : n = k
      · subst hk
        rw [PyDict.get_set_self] at hu hu'
        injection hu with hu
        injection hu' with hu'
        subst hu hu'
        exact ⟨a.ice, a.ej, PyDict.get_set_self _ _ _, PyDict.get_set_self _ _ _, ht⟩
      · rw [PyDict.get_set_ne _ _ hk] at hu hu'
        obtain ⟨ice, ej, f1, f2, f3⟩ := e3 k u u' hu hu'
        exact ⟨ice, ej, by rw [PyDict.get_set_ne _ _ hk]; exact f1, by rw [PyDict.get_set_ne _ _ hk]; exact f2, f3⟩
    · simpa using h2

theorem iceCols_threshold (g : Gen σ) (c : RunCfg) (m : ℝ) (d : RunData) (df : CraterTable) (time : List ℝ) (s : σ) :
    iceCols g { c with thickness_min := m } d df time s = iceCols g c d df time s := by
  have hi : ∀ (c : RunCfg) s, impactIce g { c with thickness_min := m } df time s = impactIce g c df time s := fun c s =>
    impactIce_same g c { c with thickness_min := m } df time (fun _ => rfl) rfl rfl rfl (fun _ => rfl) (fun _ => rfl)
      (fun _ _ => rfl) (fun _ _ _ => rfl) rfl rfl s
  have hcm : ∀ s, impactIce g ({ c with thickness_min := m } : RunCfg).comet df time s = impactIce g c.comet df time s :=
    fun s => hi c.comet s
  have hp : polarIce g { c with thickness_min := m } (readLuminosity d.lum) df time s =
      polarIce g c (readLuminosity d.lum) df time s := by
    unfold polarIce impactIceComet
    simp only [hi, hcm]
    rfl
  unfold iceCols
  rw [hp]
  rfl

theorem runFrom_threshold (g : Gen σ) (c : RunCfg) (m : ℝ) (d : RunData) (time : List ℝ) (df : CraterTable) (s : σ) :
    ExRel (TwoOuts c m time) (runFrom g c d time df s) (runFrom g { c with thickness_min := m } d time df s) := by
  unfold runFrom
  refine (ExRel.of_eq rfl).bind fun dists dists' hd => ?_
  subst hd
  refine (ExRel.of_eq (y := thicknessMatrix { c with thickness_min := m } df dists) rfl).bind fun thick thick' ht => ?_
  subst ht
  have hi : ExRel (fun p q => DictRel (SameCol fun _ _ => True) p.1 q.1 ∧ p.2 = q.2)
      (initStratCols g c d time df thick s) (initStratCols g { c with thickness_min := m } d time df thick s) := by
    unfold initStratCols
    refine (ExRel.mapM (R := fun p q => p.1 = q.1 ∧ List.Forall₂ (fun _ _ => True) p.2 q.2) _ ?_).bind
      fun ej ej' hej => ?_
    · intro i _
      exact ejectaThicknessTime_threshold _ _ _ _ _
    refine (ExRel.of_eq (iceCols_threshold g c m d df time s).symm).bind fun p q hpq => ?_
    subst hpq
    refine (buildCols_rel p.1 hej c.coldtrap_names 0 (acc := []) (acc' := []) .nil).bind fun x y hxy => ?_
    exact ⟨hxy, rfl⟩
  refine hi.liftPy.bind fun p q hpq => ?_
  refine (ExRel.of_eq (x := liftPy (bsedArrays c d time df dists thick))
    (y := liftPy (bsedArrays { c with thickness_min := m } d time df dists thick)) rfl).bind fun u v huv => ?_
  subst huv
  refine (updateStratColsFrom_rel ejShield c.impact_gardening_costello c.coldtrap_names u.1 u.2
    (overturnDepth c.overturn time) 0 hpq.1).liftPy.bind fun x y hxy => ?_
  refine ExRel.liftPy ?_
  unfold formatCsv
  refine (ExRel.of_eq rfl).bind fun a b hab => ?_
  subst hab
  refine (formatLoop_threshold c m time hxy a (p := (⟨[], [], [], []⟩, [])) (q := (⟨[], [], [], []⟩, []))
    ⟨rfl, rfl, fun n t t' h => by cases h⟩ rfl).bind fun p q hpq => ?_
  obtain ⟨o, l⟩ := p
  obtain ⟨o', l'⟩ := q
  obtain ⟨h1, h2⟩ := hpq
  simp only at h1 h2 ⊢
  by_cases hl : l = []
  · have hl' : l' = [] := by
      rw [← List.length_eq_zero_iff] at hl ⊢
      omega
    rw [if_pos hl, if_pos hl']
    exact rfl
  · have hl' : ¬ l' = [] := by
      rw [← List.length_eq_zero_iff] at hl ⊢
      omega
    rw [if_neg hl, if_neg hl']
    exact h1

theorem runMain_threshold (g : Gen σ) (c : RunCfg) (m : ℝ) (d : RunData) :
    ExRel (fun o o' => ∃ time, getTimeArray c.timestart c.timeend c.timestep = .ok time ∧ TwoOuts c m time o o')
      (runMain g c d) (runMain g { c with thickness_min := m } d) := by
  rw [C139_run_from, C139_run_from]
  show ExRel _ (liftPy (getTimeArray c.timestart c.timeend c.timestep) >>= _)
    (liftPy (getTimeArray c.timestart c.timeend c.timestep) >>= _)
  cases ht : getTimeArray c.timestart c.timeend c.timestep with
  | error e => exact rfl
  | ok time =>
    show ExRel _ (liftPy (craterBasinList g c d (g.init c.seed)) >>= _)
      (liftPy (craterBasinList g c d (g.init c.seed)) >>= _)
    cases hcb : craterBasinList g c d (g.init c.seed) with
    | error e => exact rfl
    | ok p =>
      obtain ⟨df, s⟩ := p
      exact (runFrom_threshold g c m d time df s).mono fun o o' h => ⟨time, rfl, h⟩

/-- **C172** The least thickness of a layer changes neither the columns of ice and ejecta of a run nor whether and how
it fails. -/
theorem C172_columns (g : Gen σ) (c : RunCfg) (m : ℝ) (d : RunData) :
    (∀ e, runMain g c d = .error e ↔ runMain g { c with thickness_min := m } d = .error e) ∧
      ∀ out out', runMain g c d = .ok out → runMain g { c with thickness_min := m } d = .ok out' →
        out.ice = out'.ice ∧ out.ej = out'.ej := by
  have key := runMain_threshold g c m d
  cases h1 : runMain g c d with
  | error e =>
    cases h2 : runMain g { c with thickness_min := m } d with
    | error e' =>
      rw [h1, h2] at key
      have key : e = e' := key
      subst key
      exact ⟨fun _ => Iff.rfl, fun out out' h => by cases h⟩
    | ok o => rw [h1, h2] at key; exact key.elim
  | ok o =>
    cases h2 : runMain g { c with thickness_min := m } d with
    | error e' => rw [h1, h2] at key; exact key.elim
    | ok o' =>
      rw [h1, h2] at key
      obtain ⟨time, -, k1, k2, -⟩ := key
      refine ⟨fun e => ⟨fun h => by (cases h), fun h => by (cases h)⟩, ?_⟩
      intro out out' e1 e2
      injection e1 with e1
      injection e2 with e2
      rw [← e1, ← e2]
      exact ⟨k1, k2⟩

theorem toSteps_same (time : List ℝ) {a b : StratCol ℝ} (h : SameCol (fun _ _ => True) a b) :
    List.Forall₂ SameThickness (toSteps time a) (toSteps time b) := by
  obtain ⟨h1, h2, h3⟩ := h
  have hl := h3.length_eq
  rw [List.forall₂_iff_get]
  unfold toSteps
  rw [h1, h2]
  refine ⟨by simp [hl], ?_⟩
  intro i i1 i2
  simp only [List.get_eq_getElem, List.getElem_zipWith, List.getElem_zip]
  exact ⟨rfl, rfl, rfl⟩

/-- **C172** In two runs that differ only in the least thickness of a layer, the tables of the one with the larger value
hold no more ice and no more ejecta. -/
theorem C172_run (g : Gen σ) (hg : LawfulGen g) (c : RunCfg) (m : ℝ) (d : RunData) (hc : PhysicalCfg c)
    (hd : PhysicalData c d) (hl : Lunar c d) (hnd : c.coldtrap_names.Nodup) (hm : c.thickness_min ≤ m) (out : CsvOut)
    (hrun : runMain g c d = .ok out) :
    ∃ out', runMain g { c with thickness_min := m } d = .ok out' ∧ out'.ice = out.ice ∧ out'.ej = out.ej ∧
      ∀ name ∈ c.coldtrap_names, ∃ t t', out.strat.get name = .ok t ∧ out'.strat.get name = .ok t' ∧
        (t'.map (·.ice)).sum ≤ (t.map (·.ice)).sum ∧ (t'.map (·.ejecta)).sum ≤ (t.map (·.ejecta)).sum := by
  have key := runMain_threshold g c m d
  cases hrun' : runMain g { c with thickness_min := m } d with
  | error e => rw [hrun, hrun'] at key; exact key.elim
  | ok out' =>
    rw [hrun, hrun'] at key
    obtain ⟨time, -, k1, k2, k3⟩ := key
    refine ⟨out', rfl, k1.symm, k2.symm, ?_⟩
    intro name hn
    obtain ⟨df, s, time1, -, -, h3⟩ := run_steps_nonneg g hg c d hc hd hl hnd out hrun
    obtain ⟨trap, -, -, steps, t, a1, a2, a3, -, -, a6, -⟩ := h3 name hn
    obtain ⟨df', s', time', -, -, h3'⟩ := run_steps_nonneg g hg { c with thickness_min := m } d { hc with } { hd with }
      { hl with } hnd out' hrun'
    obtain ⟨trap', -, -, steps', t', -, -, b3, -⟩ := h3' name hn
    refine ⟨t, t', a3, b3, ?_⟩
    obtain ⟨ice, ej, f1, f2, age, a, b, rfl, rfl, hab, e1, e2⟩ := k3 name t t' a3 b3
    rw [a1, Except.ok.injEq] at f1
    rw [a2, Except.ok.injEq] at f2
    refine C172_totals hm (toSteps_same time hab) ?_ t t' e1 e2
    intro st hst
    unfold toSteps at hst
    rw [List.mem_iff_getElem] at hst
    obtain ⟨i, hi, rfl⟩ := hst
    simp only [List.getElem_zipWith, List.getElem_zip]
    have q1 : ∀ x ∈ a.ice, 0 ≤ x := by
      rw [← f1]
      intro x hx
      obtain ⟨y, hy, rfl⟩ := List.mem_map.1 hx
      exact (a6 y hy).1
    have q2 : ∀ x ∈ a.ej, 0 ≤ x := by
      rw [← f2]
      intro x hx
      obtain ⟨y, hy, rfl⟩ := List.mem_map.1 hx
      exact (a6 y hy).2
    exact ⟨q1 _ (List.getElem_mem _), q2 _ (List.getElem_mem _)⟩

/-- The default configuration with layers of at least 1 m. -/
example : ∃ out out', runMain constGen (RunCfg.default 1) (shippedData [] sortDesc id id) = .ok out ∧
    runMain constGen { RunCfg.default 1 with thickness_min := 1 } (shippedData [] sortDesc id id) = .ok out' ∧
    out'.ice = out.ice := by
  have hc := default_physical 1
  have hd := default_data [] sortDesc id id sortDesc_spec 1
  have hr := default_runnable [] sortDesc id id 1
  obtain ⟨out, hrun⟩ := C72_returns constGen constGen_lawful _ _ hc hd hr
  obtain ⟨out', h1, h2, -⟩ := C172_run constGen constGen_lawful _ 1 _ hc hd (default_lunar [] sortDesc id id 1) hr.nodup
    (by simp only [RunCfg.default]; norm_num) out hrun
  exact ⟨out, out', hrun, h1, h2⟩

end MoonPIES
