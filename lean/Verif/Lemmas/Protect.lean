import Verif.Lemmas.AloofRun
import Verif.Lemmas.MainTotal
import Verif.Props.MainPhysical
import Verif.Lemmas.Gentler

/-!
# Leaving rows out of the table of craters (for C151)
-/

namespace MoonPIES

open Spec

variable {σ : Type}

theorem runFrom_inv {g : Gen σ} {c : RunCfg} {d : RunData} {time : List ℝ} {df : CraterTable} {s : σ} {out : CsvOut}
    (h : runFrom g c d time df s = .ok out) :
    ∃ dists thick cols0 s' bd bf cols,
      coldtrapDists c.ej (df.map (·.rest.crater)) c.coldtrap_names = .ok dists ∧
      thicknessMatrix c df dists = .ok thick ∧
      initStratCols g c d time df thick s = .ok (cols0, s') ∧
      bsedArrays c d time df dists thick = .ok (bd, bf) ∧
      updateStratCols id ejShield c.impact_gardening_costello c.coldtrap_names cols0 (overturnDepth c.overturn time)
        bd bf = .ok cols ∧
      formatCsv c d time df cols = .ok out := by
  unfold runFrom at h
  obtain ⟨dists, h1, h⟩ := bind_ok_inv h
  obtain ⟨thick, h2, h⟩ := bind_ok_inv h
  obtain ⟨⟨cols0, s'⟩, h3, h⟩ := bind_ok_inv h
  obtain ⟨⟨bd, bf⟩, h4, h⟩ := bind_ok_inv h
  obtain ⟨cols, h5, h⟩ := bind_ok_inv h
  exact ⟨dists, thick, cols0, s', bd, bf, cols, liftPy_ok h1, h2, liftPy_ok h3, liftPy_ok h4, liftPy_ok h5,
    liftPy_ok h⟩

theorem runFrom_of {g : Gen σ} {c : RunCfg} {d : RunData} {time : List ℝ} {df : CraterTable} {s : σ} {out : CsvOut}
    {dists thick cols0 s' bd bf cols}
    (h1 : coldtrapDists c.ej (df.map (·.rest.crater)) c.coldtrap_names = .ok dists)
    (h2 : thicknessMatrix c df dists = .ok thick)
    (h3 : initStratCols g c d time df thick s = .ok (cols0, s'))
    (h4 : bsedArrays c d time df dists thick = .ok (bd, bf))
    (h5 : updateStratCols id ejShield c.impact_gardening_costello c.coldtrap_names cols0 (overturnDepth c.overturn time)
        bd bf = .ok cols)
    (h6 : formatCsv c d time df cols = .ok out) : runFrom g c d time df s = .ok out := by
  unfold runFrom
  simp only [h1, liftPy, bind, Except.bind, h2, h3, h4, h5, h6]

theorem formatLoop_each (c : RunCfg) (time : List ℝ) (cols : PyDict (StratCol ℝ)) :
    ∀ (ages : List (String × ℝ)) (acc res : CsvOut × List (List String)),
      formatLoop c time cols ages acc = .ok res → ∀ p ∈ ages, ∃ col table, cols.get p.1 = .ok col ∧
        makeStratCol c.thickness_min RunCfg.rtol c.strat_after_age p.2 (toSteps time col) = .ok table
  | [], _, _, _, p, hp => by cases hp
  | (n, age) :: rest, (o, srcs), res, h, p, hp => by
    unfold formatLoop at h
    obtain ⟨col, h1, h⟩ := bind_ok_inv h
    obtain ⟨table, h2, h⟩ := bind_ok_inv h
    rcases List.mem_cons.1 hp with rfl | hp
    · exact ⟨col, table, h1, h2⟩
    · exact formatLoop_each c time cols rest _ res h p hp

theorem toSteps_time_mem {time : List ℝ} {col : StratCol ℝ} {s : Step ℝ} (h : s ∈ toSteps time col) :
    s.time ∈ time := by
  unfold toSteps at h
  obtain ⟨i, hi⟩ := List.mem_iff_getElem?.1 h
  rw [List.getElem?_zipWith_eq_some] at hi
  obtain ⟨t, q, h1, -, rfl⟩ := hi
  exact List.mem_of_getElem? h1

/-- Tables can be made of other columns of full length. -/
theorem formatCsv_other {c : RunCfg} {d : RunData} {time : List ℝ} {df df' : CraterTable}
    {cols cols' : PyDict (StratCol ℝ)} {out : CsvOut} (h : formatCsv c d time df cols = .ok out)
    (ht : trapAges df' c.coldtrap_names = trapAges df c.coldtrap_names)
    (hcols : ∀ name ∈ c.coldtrap_names, ∃ col, cols'.get name = .ok col ∧ col.ice.length = time.length ∧
      col.ej.length = time.length ∧ col.src.length = time.length) :
    ∃ out', formatCsv c d time df' cols' = .ok out' := by
  unfold formatCsv at h
  obtain ⟨ages, h1, h⟩ := bind_ok_inv h
  obtain ⟨⟨o, srcs⟩, h2, h⟩ := bind_ok_inv h
  obtain ⟨hin, hages⟩ := trapAges_inv _ _ _ h1
  have each := formatLoop_each _ _ _ _ _ _ h2
  obtain ⟨res, h3, h4⟩ := formatLoop_ok c time cols' ages (⟨[], [], [], []⟩, []) (by
    intro p hp
    obtain ⟨col, table, e1, e2⟩ := each p hp
    obtain ⟨col', f1, f2, f3, f4⟩ := hcols p.1 (hages p hp).1
    refine ⟨col', ?_⟩
    have : ∃ table', makeStratCol c.thickness_min RunCfg.rtol c.strat_after_age p.2 (toSteps time col') = .ok table' := by
      cases hs : c.strat_after_age with
      | false => exact ⟨_, rfl⟩
      | true =>
        rw [hs] at e2
        have hex : ∃ s ∈ toSteps time col, s.time < p.2 + |p.2| * RunCfg.rtol := by
          by_contra hcon
          push Not at hcon
          exact (makeStratCol_fails _ _ _ _).2 hcon _ e2
        obtain ⟨s, hs1, hs2⟩ := hex
        have hm := toSteps_time_mem hs1
        rw [← (toSteps_time time col' f2 f3 f4).1] at hm
        obtain ⟨s', hs', e⟩ := List.mem_map.1 hm
        exact makeStratCol_total _ _ _ _ _ ⟨s', hs', e ▸ hs2⟩
    obtain ⟨table', ht'⟩ := this
    exact ⟨table', f1, ht'⟩)
  obtain ⟨o', srcs'⟩ := res
  have hl : srcs.length = ages.length := by
    have := formatLoop_ok c time cols ages (⟨[], [], [], []⟩, []) each
    obtain ⟨res, r1, r2⟩ := this
    rw [h2] at r1
    injection r1 with r1
    rw [← r1] at r2
    simpa using r2
  have hne : srcs ≠ [] := by
    rintro rfl
    simp only [if_pos] at h
    cases h
  have hne' : srcs' ≠ [] := by
    rintro rfl
    simp only [List.length_nil, Nat.zero_add] at h4
    exact hne (List.length_eq_zero_iff.1 (hl.trans h4.symm))
  refine ⟨{ o' with labels := (getAllLabels d.setOrder (((List.range time.length).map
      (column srcs')).map (fun row => row.map String.toList))).map String.ofList }, ?_⟩
  unfold formatCsv
  simp only [ht, h1, bind, Except.bind, h3, if_neg hne']

section rows

variable {c : RunCfg} {df : CraterTable} {keep : CraterAge ℝ CraterCols → Bool}

theorem filter_kept {t : String} (hk : ∀ r ∈ df, keep r = false → r.rest.crater.cname ≠ t) :
    (df.filter keep).filter (fun q => decide (q.rest.crater.cname = t)) =
      df.filter (fun q => decide (q.rest.crater.cname = t)) := by
  rw [List.filter_filter]
  refine List.filter_congr fun r hr => ?_
  cases h : keep r with
  | true => simp
  | false => simp [hk r hr h]

theorem coldtrapDist_kept (cfg : EjCfg) {t : String} (hk : ∀ r ∈ df, keep r = false → r.rest.crater.cname ≠ t)
    (x : Crater) : coldtrapDist cfg ((df.filter keep).map (·.rest.crater)) x t =
      coldtrapDist cfg (df.map (·.rest.crater)) x t := by
  unfold coldtrapDist
  have e : ∀ l : CraterTable, (l.map (·.rest.crater)).filter (fun q => decide (q.cname = t)) =
      (l.filter (fun q => decide (q.rest.crater.cname = t))).map (·.rest.crater) := by
    intro l; rw [List.filter_map]; rfl
  rw [e, e, filter_kept hk]

theorem rowEjecta_kept {t : String} (hk : ∀ r ∈ df, keep r = false → r.rest.crater.cname ≠ t) :
    RowEjecta c (df.filter keep) t = RowEjecta c df t := by
  funext r x
  unfold RowEjecta
  rw [coldtrapDist_kept c.ej hk]

theorem rowEjecta_fun {t : String} {r : CraterAge ℝ CraterCols} {x y : ℝ} (h : RowEjecta c df t r x)
    (h' : RowEjecta c df t r y) : x = y := by
  obtain ⟨d, h1, h2⟩ := h
  obtain ⟨d', h1', h2'⟩ := h'
  rw [h1] at h1'
  injection h1' with e
  subst e
  rw [h2] at h2'
  injection h2'

theorem zip_kept {α β : Type} {P : α → β → Prop} (hP : ∀ a x y, P a x → P a y → x = y) (keep : α → Bool) :
    ∀ {l : List α} {m m' : List β}, List.Forall₂ P l m → List.Forall₂ P (l.filter keep) m' →
      (l.filter keep).zip m' = (l.zip m).filter (fun p => keep p.1)
  | [], _, _, .nil, h' => by cases h'; rfl
  | a :: l, x :: m, m', .cons h hl, h' => by
    cases hk : keep a with
    | false =>
      rw [List.filter_cons_of_neg (by simp [hk])] at h' ⊢
      rw [List.zip_cons_cons, List.filter_cons_of_neg (by simp [hk])]
      exact zip_kept hP keep hl h'
    | true =>
      rw [List.filter_cons_of_pos hk] at h' ⊢
      rw [List.zip_cons_cons, List.filter_cons_of_pos (p := fun p : α × β => keep p.1) (a := (a, x)) hk]
      cases h' with
      | cons h0 h' =>
        rw [List.zip_cons_cons, hP _ _ _ h0 h, zip_kept hP keep hl h']

theorem sum_kept_le {α : Type} (f : α → ℝ) (p : α → Bool) : ∀ (l : List α), (∀ a ∈ l, 0 ≤ f a) →
    ((l.filter p).map f).sum ≤ (l.map f).sum
  | [], _ => le_rfl
  | a :: l, h => by
    have := sum_kept_le f p l fun b hb => h b (by simp [hb])
    cases hp : p a with
    | true => rw [List.filter_cons_of_pos hp]; simp only [List.map_cons, List.sum_cons]; linarith
    | false =>
      rw [List.filter_cons_of_neg (by simp [hp])]
      have := h a (by simp)
      simp only [List.map_cons, List.sum_cons]; linarith

/-- Fewer craters, no thicker ejecta. -/
theorem ejecta_kept_le (time : List ℝ) {t : String} (hk : ∀ r ∈ df, keep r = false → r.rest.crater.cname ≠ t)
    (hpos : ∀ r ∈ df, ∀ x, RowEjecta c df t r x → 0 ≤ x) {th th' : List ℝ}
    (h : List.Forall₂ (RowEjecta c df t) df th)
    (h' : List.Forall₂ (RowEjecta c (df.filter keep) t) (df.filter keep) th') {o o' : List ℝ × List String}
    (e : ejectaThicknessTime RunCfg.rtol c.thickness_min time (ejRows df th) = .ok o)
    (e' : ejectaThicknessTime RunCfg.rtol c.thickness_min time (ejRows (df.filter keep) th') = .ok o') :
    List.Forall₂ (· ≤ ·) o'.1 o.1 ∧ ∀ x ∈ o'.1, 0 ≤ x := by
  have l1 := (ejectaThicknessTime_ne e).2.1
  have l2 := (ejectaThicknessTime_ne e').2.1
  rw [rowEjecta_kept hk] at h'
  have hz := zip_kept (P := RowEjecta c df t) (fun _ _ _ a b => rowEjecta_fun a b) keep h h'
  have hnn : ∀ p ∈ df.zip th, 0 ≤ p.2 := by
    intro p hp
    obtain ⟨i, hi⟩ := List.mem_iff_getElem?.1 hp
    rw [List.getElem?_zip_eq_some] at hi
    have := (forall₂_iff_getElem?.1 h).2 i _ _ hi.1 hi.2
    exact hpos _ (List.mem_of_getElem? hi.1) _ this
  constructor
  · rw [forall₂_iff_getElem?]
    refine ⟨by omega, fun i y x hy hx => ?_⟩
    rw [ejecta_sum _ _ _ _ _ h'.length_eq.symm _ e' i y hy, ejecta_sum _ _ _ _ _ h.length_eq.symm _ e i x hx, hz,
      List.filter_comm]
    exact sum_kept_le _ _ _ fun p hp => hnn p (List.mem_of_mem_filter hp)
  · intro x hx
    obtain ⟨i, hi⟩ := List.mem_iff_getElem?.1 hx
    rw [ejecta_sum _ _ _ _ _ h'.length_eq.symm _ e' i x hi, hz]
    apply List.sum_nonneg
    intro y hy
    obtain ⟨q, hq, rfl⟩ := List.mem_map.1 hy
    exact hnn q (List.mem_of_mem_filter (List.mem_of_mem_filter hq))

theorem icyRows_kept (c : RunCfg) (hk : ∀ r ∈ df, keep r = false → BringsNoIce r) :
    icyRows c (df.filter keep) = icyRows c df := by
  unfold icyRows
  rw [List.filter_filter]
  refine List.filter_congr fun r hr => ?_
  cases h : keep r with
  | true => simp
  | false =>
    cases hb : r.rest.crater.isbasin with
    | false => simp
    | true =>
      obtain ⟨h1, h2⟩ := hk r hr h hb
      cases c.is_comet <;> simp [h1, h2]

theorem iceCols_kept (g : Gen σ) (c : RunCfg) (d : RunData) (time : List ℝ) (s : σ)
    (hk : ∀ r ∈ df, keep r = false → BringsNoIce r) :
    iceCols g c d (df.filter keep) time s = iceCols g c d df time s := by
  have e : ∀ (c : RunCfg) s, impactIce g c (df.filter keep) time s = impactIce g c df time s := by
    intro c s
    unfold impactIce iceBasins
    rw [icyRows_kept c hk]
  unfold iceCols polarIce impactIceComet
  simp only [e]

theorem trapAges_kept (names : List String) (hk : ∀ r ∈ df, keep r = false → r.rest.crater.cname ∉ names) :
    trapAges (df.filter keep) names = trapAges df names := by
  unfold trapAges
  rw [mapM_congr_mem (f' := rowsNamed df)]
  intro t ht
  unfold rowsNamed
  rw [filter_kept fun r hr h e => hk r hr h (e ▸ ht)]

theorem bsedArrays_off (c : RunCfg) (d : RunData) (hoff : c.ballistic_sed = false) (time : List ℝ) (df df' : CraterTable)
    (dists dists' : List (List (Option ℝ))) (thick thick' : List (List ℝ)) :
    bsedArrays c d time df' dists' thick' = bsedArrays c d time df dists thick := by
  have e : c.bsed.ballistic_sed = false := hoff
  unfold bsedArrays bsedDepth
  simp only [e, Bool.false_eq_true, not_false_eq_true, if_true, List.map_map]
  rfl

theorem dists_kept {dists : List (List (Option ℝ))}
    (hk : ∀ r ∈ df, keep r = false → r.rest.crater.cname ∉ c.coldtrap_names)
    (h : coldtrapDists c.ej (df.map (·.rest.crater)) c.coldtrap_names = .ok dists) {thick : List (List ℝ)}
    (h2 : thicknessMatrix c df dists = .ok thick) :
    ∃ dists' thick', coldtrapDists c.ej ((df.filter keep).map (·.rest.crater)) c.coldtrap_names = .ok dists' ∧
      thicknessMatrix c (df.filter keep) dists' = .ok thick' := by
  obtain ⟨l1, i1⟩ := mapM_ok_inv _ _ _ h
  obtain ⟨l2, i2⟩ := mapM_ok_inv _ _ _ h2
  have e : ∀ r ∈ df, c.coldtrap_names.mapM (fun trap => coldtrapDist c.ej ((df.filter keep).map (·.rest.crater))
      r.rest.crater trap) = c.coldtrap_names.mapM (fun trap => coldtrapDist c.ej (df.map (·.rest.crater))
      r.rest.crater trap) := fun r _ =>
    mapM_congr_mem fun t ht => coldtrapDist_kept c.ej (fun r hr h e => hk r hr h (e ▸ ht)) _
  -- the rows of both matrices
  have row : ∀ r ∈ df, ∃ ds th, c.coldtrap_names.mapM (fun trap => coldtrapDist c.ej (df.map (·.rest.crater))
      r.rest.crater trap) = .ok ds ∧ ds.mapM (fun d => finiteOf (ejThickness c.ej d r.rest.crater.rad)) = .ok th := by
    intro r hr
    obtain ⟨i, hi⟩ := List.mem_iff_getElem?.1 hr
    obtain ⟨ds, e1, e2⟩ := i1 i r.rest.crater (by rw [List.getElem?_map, hi]; rfl)
    obtain ⟨th, e3, e4⟩ := i2 i (r, ds) (by rw [List.getElem?_zip_eq_some]; exact ⟨hi, e1⟩)
    exact ⟨ds, th, e2, e4⟩
  obtain ⟨dists', a1, a2, a3⟩ := mapM_ok (fun row => c.coldtrap_names.mapM (fun trap => coldtrapDist c.ej
    ((df.filter keep).map (·.rest.crater)) row trap)) ((df.filter keep).map (·.rest.crater)) (by
      intro x hx
      obtain ⟨r, hr, rfl⟩ := List.mem_map.1 hx
      have hr := (List.mem_filter.1 hr).1
      obtain ⟨ds, -, h1, -⟩ := row r hr
      exact ⟨ds, (e r hr).trans h1⟩)
  obtain ⟨thick', b1, -⟩ := mapM_ok (fun p : CraterAge ℝ CraterCols × List (Option ℝ) => p.2.mapM (fun d =>
    finiteOf (ejThickness c.ej d p.1.rest.crater.rad))) ((df.filter keep).zip dists') (by
      intro p hp
      obtain ⟨i, hi⟩ := List.mem_iff_getElem?.1 hp
      rw [List.getElem?_zip_eq_some] at hi
      have hr := (List.mem_filter.1 (List.mem_of_getElem? hi.1)).1
      obtain ⟨ds, q1, q2⟩ := a3 i p.1.rest.crater (by rw [List.getElem?_map, hi.1]; rfl)
      rw [hi.2] at q1
      injection q1 with q1
      obtain ⟨ds', th, r1, r2⟩ := row p.1 hr
      have := (e p.1 hr).symm.trans q2
      rw [r1] at this
      injection this with this
      rw [q1, ← this]
      exact ⟨th, r2⟩)
  exact ⟨dists', thick', a1, b1⟩

end rows

end MoonPIES
