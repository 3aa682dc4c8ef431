import Verif.Props.Above
import Verif.Props.AfterAge
import Verif.Props.Traps

/-!
# C174: what happened before a cold trap formed leaves no trace in its table
-/

namespace MoonPIES

open Spec

section
variable {K : Type}

theorem filter_agree {p : K → Bool} {l l' : List K}
    (h : List.Forall₂ (fun a b => a = b ∨ p a = false ∧ p b = false) l l') : l.filter p = l'.filter p := by
  induction h with
  | nil => rfl
  | @cons a b l l' hab _ ih =>
    rcases hab with rfl | ⟨h1, h2⟩
    · rw [List.filter_cons, List.filter_cons, ih]
    · rw [List.filter_cons_of_neg (by simp [h1]), List.filter_cons_of_neg (by simp [h2]), ih]

variable [Field K] [LinearOrder K] [IsStrictOrderedRing K] [FloorRing K]

omit [IsStrictOrderedRing K] in
/-- **C174** A table that starts at the age of the trap is made of the timesteps since then only: nothing else enters,
not even in how it fails. -/
theorem C174_since (m tol age : K) (steps steps' : List (Step K))
    (h : List.Forall₂ (fun s s' : Step K => s = s' ∨ age + |age| * tol ≤ s.time ∧ age + |age| * tol ≤ s'.time) steps steps') :
    makeStratCol m tol true age steps = makeStratCol m tol true age steps' := by
  have hf : (labelRows m steps).filter (fun r => decide (r.2.time < age + rtolAbs age tol)) =
      (labelRows m steps').filter (fun r => decide (r.2.time < age + rtolAbs age tol)) := by
    apply filter_agree
    unfold labelRows
    rw [List.forall₂_map_left_iff, List.forall₂_map_right_iff]
    refine h.imp ?_
    intro s s' hs
    rcases hs with rfl | ⟨h1, h2⟩
    · exact Or.inl rfl
    · exact Or.inr ⟨decide_eq_false (not_lt.2 h1), decide_eq_false (not_lt.2 h2)⟩
  unfold makeStratCol
  simp only [if_true]
  unfold cutAtAge
  rw [hf]

/-- The column laid down by a sequence of events, with its times and sources. -/
def columnOf (time : List K) (vs : List (Event K)) (src : List String) : List (Step K) :=
  List.zipWith (fun t (p : K × K × String) => ⟨t, p.1, p.2.1, p.2.2⟩) time
    ((((layDown [] vs).map (·.1)).reverse).zip ((vs.map (·.ej)).zip src))

omit [IsStrictOrderedRing K] in
/-- **C174** Two cold traps in which the same things happen since the age at which their tables start have the same
tables, whatever ice and ejecta they had before. -/
theorem C174_column (m tol age : K) (time : List K) (hdec : time.Pairwise (· > ·)) (vs vs' : List (Event K))
    (src src' : List String) (l1 : vs.length = time.length) (l2 : vs'.length = time.length)
    (l3 : src.length = time.length) (l4 : src'.length = time.length)
    (h : ∀ (i : Nat) t, time[i]? = some t → t < age + |age| * tol → vs[i]? = vs'[i]? ∧ src[i]? = src'[i]?) :
    makeStratCol m tol true age (columnOf time vs src) = makeStratCol m tol true age (columnOf time vs' src') := by
  apply C174_since
  have len : ∀ (vs : List (Event K)) (src : List String), vs.length = time.length → src.length = time.length →
      (columnOf time vs src).length = time.length := by
    intro vs src h1 h2
    unfold columnOf
    simp [layDown_length, h1, h2]
  rw [List.forall₂_iff_get]
  refine ⟨by rw [len _ _ l1 l3, len _ _ l2 l4], ?_⟩
  intro i i1 i2
  have hi : i < time.length := by rwa [len _ _ l1 l3] at i1
  by_cases hyoung : time[i] < age + |age| * tol
  · left
    have hd : vs.drop i = vs'.drop i := by
      apply List.ext_getElem?
      intro k
      rw [List.getElem?_drop, List.getElem?_drop]
      by_cases hk : i + k < time.length
      · refine (h (i + k) _ (List.getElem?_eq_getElem hk) ?_).1
        refine lt_of_le_of_lt ?_ hyoung
        rcases Nat.eq_zero_or_pos k with rfl | hk0
        · exact le_rfl
        · exact (List.pairwise_iff_getElem.1 hdec i (i + k) hi hk (by omega)).le
      · rw [List.getElem?_eq_none (by omega), List.getElem?_eq_none (by omega)]
    have hice : (((layDown [] vs).map (·.1)).reverse)[i]? = (((layDown [] vs').map (·.1)).reverse)[i]? := by
      have e := congrArg (fun l => l[0]?) ((drop_layers vs i).trans ((congrArg (fun l =>
        ((layDown [] l).map (·.1)).reverse) hd).trans (drop_layers vs' i).symm))
      simpa using e
    obtain ⟨e1, e2⟩ := h i _ (List.getElem?_eq_getElem hi) hyoung
    have e1 : (vs.map (·.ej))[i]? = (vs'.map (·.ej))[i]? := by rw [List.getElem?_map, List.getElem?_map, e1]
    simp only [List.get_eq_getElem]
    apply Option.some.inj
    rw [← List.getElem?_eq_getElem i1, ← List.getElem?_eq_getElem i2]
    simp only [columnOf, List.zip, List.getElem?_zipWith, hice, e1, e2]
  · right
    have ht : ∀ (vs : List (Event K)) (src : List String) (w : i < (columnOf time vs src).length),
        (columnOf time vs src)[i].time = time[i] := by
      intro vs src w
      simp only [columnOf, List.getElem_zipWith]
    simp only [List.get_eq_getElem, ht]
    exact ⟨not_lt.1 hyoung, not_lt.1 hyoung⟩

end

/-- Ice delivered and worked before the trap formed differs, the tables do not. -/
example : makeStratCol (K := ℚ) (1 / 10) 0 true (5 / 2)
      (columnOf [3, 2, 1] [⟨7, 0, 1, 0, 0⟩, ⟨2, 0, 1, 0, 0⟩, ⟨0, 5, 1, 0, 0⟩] ["", "", "Faustini"]) =
    makeStratCol (1 / 10) 0 true (5 / 2)
      (columnOf [3, 2, 1] [⟨4, 9, 0, 1, 1⟩, ⟨2, 0, 1, 0, 0⟩, ⟨0, 5, 1, 0, 0⟩] ["Shackleton", "", "Faustini"]) := by
  apply C174_column
  · decide +kernel
  · rfl
  · rfl
  · rfl
  · rfl
  · intro i t h1 h2
    match i with
    | 0 =>
      simp only [List.getElem?_cons_zero, Option.some.injEq] at h1
      rw [← h1] at h2
      norm_num at h2
    | i + 1 => exact ⟨rfl, rfl⟩

/-! ## Runs -/

variable {σ : Type}

/-- **C174** Two runs that differ only in their volcanism before a cold trap formed give it the same table. -/
theorem C174_run (g : Gen σ) (hg : LawfulGen g) (c o : RunCfg) (d : RunData) (hc : PhysicalCfg c)
    (hc' : PhysicalCfg (withVolcanism c o)) (hd : PhysicalData c d) (hd' : PhysicalData (withVolcanism c o) d)
    (hnd : c.coldtrap_names.Nodup) (hdt : 0 < c.timestep) (hts : c.timestep < c.timestart)
    (hspan : c.timestep ≤ c.timestart - c.timeend)
    (hmode : c.impact_gardening_costello = true ∨ c.impact_gardening_costello = false ∧ c.ballistic_sed = false ∧
      0 ≤ c.ice_erosion_rate * (c.timestep / 1e7))
    (hgood : ∀ r ∈ d.craters ++ d.basins, GoodName r.cname) (hsaa : c.strat_after_age = true) (out out' : CsvOut)
    (hrun : runMain g c d = .ok out) (hrun' : runMain g (withVolcanism c o) d = .ok out') (name : String)
    (hn : name ∈ c.coldtrap_names) (honce : ((d.craters ++ d.basins).map (·.cname)).count name ≤ 1) :
    ∃ df s, craterBasinList g c d (g.init c.seed) = .ok (df, s) ∧
      ∃ trap ∈ df, trap.rest.crater.cname = name ∧
        ((∀ t < trap.age + |trap.age| * 1e-6, Quiet c o t) →
          ∃ table, out.strat.get name = .ok table ∧ out'.strat.get name = .ok table) := by
  obtain ⟨df, s, time, h1, h2, h3⟩ := run_steps g hg c d hc hd hnd out hrun
  obtain ⟨df', s', time', k1, k2, k3⟩ := run_steps g hg (withVolcanism c o) d hc' hd' hnd out' hrun'
  have k1 : craterBasinList g c d (g.init c.seed) = .ok (df', s') := k1
  rw [h1] at k1
  injection k1 with k1
  obtain ⟨rfl, rfl⟩ := Prod.mk.inj k1
  have k2 : getTimeArray c.timestart c.timeend c.timestep = .ok time' := k2
  rw [h2] at k2
  injection k2 with k2
  subst k2
  obtain ⟨l, hl1, -, -, hl2, -⟩ := C19_shape_partial c.timestart c.timeend c.timestep hdt hts hspan
  rw [h2] at hl1
  injection hl1 with hl1
  subst hl1
  obtain ⟨trap, t1, t2, steps, table, a1, a2, a3, a4, a5, -, th, b1, -, b2⟩ := h3 name hn
  obtain ⟨trap', t1', t2', steps', table', c1, c2, c3, c4, c5, -, th', d1, -, d2⟩ := k3 name hn
  refine ⟨df, s, h1, trap, t1, t2, ?_⟩
  intro hq
  have hp := (run_rest g c d hd.sorted _ _ _ h1).map (fun r => r.crater.cname)
  rw [List.map_map, List.map_map] at hp
  have hcount : (df.map (fun r => r.rest.crater.cname)).count name ≤ 1 := by
    have e := hp.count_eq name
    rw [show (df.map (fun r => r.rest.crater.cname)).count name = _ from e]
    refine le_trans (List.Sublist.count_le name ?_) honce
    unfold rawTable
    rw [List.map_append, List.map_append, List.map_map]
    exact List.Sublist.append (List.Sublist.refl _) (zipWith_names_sublist _ _)
  obtain rfl := unique_row hcount t1 t2 t1' t2'
  have hth : th' = th := rowEjecta_unique (c := c) (df := df) (name := name) d1 b1
  subst hth
  obtain ⟨time0, ice, ice', ej, v1, v2, v3, v4, v5, -, v6⟩ :=
    C170_volcanism g hg c o d hc hc' hd hd' hnd hmode out out' hrun hrun' name hn
  rw [h2] at v1
  injection v1 with v1
  subst v1
  rw [a1] at v2
  injection v2 with v2
  rw [c1] at v3
  injection v3 with v3
  rw [a2] at v4
  injection v4 with v4
  rw [c2] at v5
  injection v5 with v5
  have key : makeStratCol c.thickness_min RunCfg.rtol true trap.age steps =
      makeStratCol c.thickness_min RunCfg.rtol true trap.age steps' := by
    apply C174_since
    rw [forall₂_iff_getElem?]
    have hls : steps.length = time.length := by rw [← a4, List.length_map]
    have hls' : steps'.length = time.length := by rw [← c4, List.length_map]
    refine ⟨by rw [hls, hls'], ?_⟩
    intro i x y hx hy
    have hi : i < time.length := by rw [← hls]; exact (List.getElem?_eq_some_iff.1 hx).1
    have ex : x.time = time[i] := by
      apply Option.some.inj
      rw [← List.getElem?_eq_getElem hi, ← a4, List.getElem?_map, hx]
      rfl
    have ey : y.time = time[i] := by
      apply Option.some.inj
      rw [← List.getElem?_eq_getElem hi, ← c4, List.getElem?_map, hy]
      rfl
    by_cases hyoung : time[i] < trap.age + |trap.age| * 1e-6
    · left
      have hice := v6 i (by
        intro k t hk ht
        apply hq
        refine lt_of_le_of_lt ?_ hyoung
        obtain ⟨w, rfl⟩ := List.getElem?_eq_some_iff.1 ht
        rcases Nat.eq_or_lt_of_le hk with rfl | hk
        · exact le_rfl
        · exact (List.pairwise_iff_getElem.1 hl2 i k hi w hk).le)
      have e1 := congrArg (fun l => l[0]?) hice
      simp only [List.getElem?_drop, Nat.add_zero] at e1
      rw [← v2, ← v3, List.getElem?_map, List.getElem?_map, hx, hy] at e1
      have e2 := congrArg (fun l => l[i]?) (v4.trans v5.symm)
      simp only [List.getElem?_map, hx, hy, Option.map_some, Option.some.injEq] at e1 e2
      have e3 := (b2 hgood i x hx).trans (d2 hgood i y hy).symm
      rw [← ey] at ex
      clear hx hy ey hyoung hice
      cases x
      cases y
      simp only at e1 e2 e3 ex
      rw [e1, e2, e3, ex]
    · right
      rw [ex, ey]
      exact ⟨not_lt.1 hyoung, not_lt.1 hyoung⟩
  have c5 : makeStratCol c.thickness_min RunCfg.rtol c.strat_after_age trap.age steps' = .ok table' := c5
  rw [hsaa] at a5 c5
  rw [a5, c5] at key
  injection key with key
  exact ⟨table, a3, by rw [c3, key]⟩

/-- The shipped configuration with volcanism that ends 3.3 Ga ago and erupts the volume `v`. -/
noncomputable def oldVolcanism (seed : Int) (v : ℝ) : RunCfg :=
  { RunCfg.default seed with volc_early := (4e9, 3.5e9), volc_late := (3.5e9, 3.3e9), volc_total_vol := v }

/-- **C174** With volcanism that ends 3.3 Ga ago, the table of Shackleton is the same however much erupted: the crater is
at most 3.2 Ga old. -/
theorem C174_shackleton (g : Gen σ) (hg : LawfulGen g) (nk : List (ℝ × ℝ)) (sortAges : CraterTable → CraterTable)
    (sortNk : List (ℝ × ℝ) → List (ℝ × ℝ)) (setOrder : List (List Char) → List (List Char))
    (hs : Spec.SortDesc sortAges) (seed : Int) (v w : ℝ) (hv : 0 ≤ v) (hw : 0 ≤ w) :
    ∃ out out' table, runMain g (oldVolcanism seed v) (shippedData nk sortAges sortNk setOrder) = .ok out ∧
      runMain g (oldVolcanism seed w) (shippedData nk sortAges sortNk setOrder) = .ok out' ∧
      out.strat.get "Shackleton" = .ok table ∧ out'.strat.get "Shackleton" = .ok table := by
  have phys : ∀ v, PhysicalCfg (oldVolcanism seed v) := fun v => { default_physical seed with }
  have data : ∀ v, 0 ≤ v → PhysicalData (oldVolcanism seed v) (shippedData nk sortAges sortNk setOrder) := fun v hv =>
    { default_data nk sortAges sortNk setOrder hs seed with
      volc := ⟨(default_data nk sortAges sortNk setOrder hs seed).volc.1, hv,
        (default_data nk sortAges sortNk setOrder hs seed).volc.2.2⟩ }
  have runs : ∀ v, Runnable (oldVolcanism seed v) (shippedData nk sortAges sortNk setOrder) := fun v =>
    { default_runnable nk sortAges sortNk setOrder seed with }
  obtain ⟨out, hrun⟩ := C72_returns g hg _ _ (phys v) (data v hv) (runs v)
  obtain ⟨out', hrun'⟩ := C72_returns g hg _ _ (phys w) (data w hw) (runs w)
  have hn : "Shackleton" ∈ (oldVolcanism seed v).coldtrap_names := by simp [oldVolcanism, RunCfg.default]
  have t1 : (0 : ℝ) < (oldVolcanism seed v).timestep := by simp only [oldVolcanism, RunCfg.default]; norm_num
  have t2 : (oldVolcanism seed v).timestep ≤ (oldVolcanism seed v).timestart - (oldVolcanism seed v).timeend := by
    have := (runs v).span
    linarith
  obtain ⟨df, s, h1, trap, h2, h3, h4⟩ := C174_run g hg (oldVolcanism seed v) (oldVolcanism seed w) _ (phys v) (phys w)
    (data v hv) (data w hw) (runs v).nodup t1 (runs v).start t2 (Or.inl rfl)
    (fun r hr => plain_good (shipped_plain _ _ _ _ r hr)) rfl out out' hrun hrun' "Shackleton" hn ((runs v).once _ hn).le
  obtain ⟨df', s', k1, k2, k3⟩ := craterBasinList_ok g hg (phys v) (data v hv) (runs v) (g.init (oldVolcanism seed v).seed)
  rw [h1] at k1
  injection k1 with k1
  obtain ⟨rfl, rfl⟩ := Prod.mk.inj k1
  obtain ⟨raw, r1, b, icy, -, -, r3, r4, r5, -⟩ := k3 trap h2
  have hname : raw.cname = "Shackleton" := by
    rw [← h3, r3]
    rfl
  rw [show (shippedData nk sortAges sortNk setOrder).craters ++ (shippedData nk sortAges sortNk setOrder).basins =
    (craterFile ++ basinFile).map FileRow.read by rw [List.map_append]; rfl] at r1
  obtain ⟨q, hq, rfl⟩ := List.mem_map.1 r1
  have hage : ∀ q ∈ craterFile ++ basinFile, q.cname = "Shackleton" → q.age = 3.15 ∧ q.age_low = 0.08 ∧ q.age_upp = 0.05 := by
    decide +kernel
  obtain ⟨a1, a2, a3⟩ := hage q hq hname
  simp only [readRow, FileRow.read, a1, a2, a3, oldVolcanism, RunCfg.default] at r4 r5
  norm_num at r4 r5
  have hpos : 0 ≤ trap.age := by linarith
  obtain ⟨table, e1, e2⟩ := h4 (by
    intro t ht
    rw [abs_of_nonneg hpos] at ht
    have ht : t < 3.3e9 := by
      norm_num at ht ⊢
      linarith
    unfold Quiet InEpoch
    simp only [oldVolcanism]
    norm_num at ht ⊢
    refine ⟨?_, ?_, ?_, ?_⟩ <;> intro _ <;> linarith)
  exact ⟨out, out', table, hrun, hrun', e1, e2⟩

end MoonPIES
