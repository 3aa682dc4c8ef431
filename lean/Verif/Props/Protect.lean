import Verif.Lemmas.Protect
import Verif.Props.Main
import Verif.Props.Traps
import Verif.Props.Gentler
import Verif.Props.Aloof

/-!
# C151: without ballistic sedimentation craters only protect ice
-/

namespace MoonPIES

open Spec

variable {σ : Type}

/-- **C151** with ballistic sedimentation off, leave any craters and basins out of the dated table that are no cold
traps and bring no ice: the run still completes, and no layer of any cold trap has more ejecta or more ice than
before, whichever way of gardening is used. -/
theorem C151_protects (g : Gen σ) (hg : LawfulGen g) (c : RunCfg) (d : RunData) (hc : PhysicalCfg c)
    (hd : PhysicalData c d) (hnd : c.coldtrap_names.Nodup) (hoff : c.ballistic_sed = false) (time : List ℝ)
    (df : CraterTable) (hrad : ∀ r ∈ df, r.rest.crater.isbasin = true → 0 < r.rest.crater.rad)
    (hpos : ∀ t ∈ c.coldtrap_names, ∀ r ∈ df, ∀ x, RowEjecta c df t r x → 0 ≤ x)
    (keep : CraterAge ℝ CraterCols → Bool)
    (hk : ∀ r ∈ df, keep r = false → r.rest.crater.cname ∉ c.coldtrap_names ∧ BringsNoIce r) (s : σ) (out : CsvOut)
    (h : runFrom g c d time df s = .ok out) :
    ∃ out', runFrom g c d time (df.filter keep) s = .ok out' ∧
      ∀ name ∈ c.coldtrap_names, ∃ ice ice' ej ej', out.ice.get name = .ok ice ∧ out'.ice.get name = .ok ice' ∧
        out.ej.get name = .ok ej ∧ out'.ej.get name = .ok ej' ∧
        List.Forall₂ (· ≤ ·) ej' ej ∧ List.Forall₂ (· ≤ ·) ice' ice := by
  obtain ⟨dists, thick, cols0, s', bd, bf, cols, a1, a2, a3, a4, a5, a6⟩ := runFrom_inv h
  obtain ⟨dists', thick', b1, b2⟩ := dists_kept (keep := keep) (fun r hr h => (hk r hr h).1) a1 a2
  obtain ⟨ej, ice, i1, i2, i3⟩ := initStratCols_inv _ _ _ _ _ _ _ _ _ a3
  obtain ⟨hne, hfmt⟩ := formatCsv_inv _ _ _ _ _ _ a6
  obtain ⟨el, ei⟩ := mapM_ok_inv _ _ _ i1
  have hpos0 : 0 < c.coldtrap_names.length := List.length_pos_iff.2 hne
  rw [List.length_range] at el
  have elem : ∀ (k : Nat), k < c.coldtrap_names.length → ∃ e, ej[k]? = some e ∧
      ejectaThicknessTime RunCfg.rtol c.thickness_min time (ejRows df (column thick k)) = .ok e := by
    intro k hk
    exact ei k k (by rw [List.getElem?_range hk])
  have htime : time ≠ [] := by
    obtain ⟨e, -, he⟩ := elem 0 hpos0
    exact (ejectaThicknessTime_ne he).1
  -- the columns without the rows left out
  obtain ⟨ej', j1, jl, ji⟩ := mapM_ok (fun i => ejectaThicknessTime RunCfg.rtol c.thickness_min time
    (ejRows (df.filter keep) (column thick' i))) (List.range c.coldtrap_names.length)
    (fun i _ => ejectaThicknessTime_ok _ _ time htime _)
  rw [List.length_range] at jl
  obtain ⟨cols0', j3⟩ := buildCols_ok ice ej' c.coldtrap_names 0 [] (by omega)
  have b3 : initStratCols g c d time (df.filter keep) thick' s = .ok (cols0', s') := by
    unfold initStratCols
    simp only [bind, Except.bind, j1, iceCols_kept g c d time s (fun r hr h => (hk r hr h).2), i2, j3]
  have b4 := (bsedArrays_off c d hoff time df (df.filter keep) dists dists' thick thick').trans a4
  obtain ⟨rows, s3, k1, k2, k3⟩ := iceCols_ok g hg hc hd df hrad time htime s
  rw [k1] at i2
  injection i2 with i2
  injection i2 with i2 i2'
  subst i2; subst i2'
  obtain ⟨w1, w2, w3, w4, w5⟩ := bsedArrays_ok_inv c d hd time htime df dists thick bd bf a4
  have hov : (overturnDepth c.overturn time).length = time.length := by
    unfold overturnDepth; split <;> simp
  -- ejecta
  have hej : ∀ (k : Nat) e e', k < c.coldtrap_names.length → ej[k]? = some e → ej'[k]? = some e' →
      List.Forall₂ (· ≤ ·) e'.1 e.1 ∧ ∀ x ∈ e'.1, 0 ≤ x := by
    intro k e e' hkl he he'
    obtain ⟨f, f1, f2⟩ := elem k hkl
    obtain ⟨f', f1', f2'⟩ := ji k k (by rw [List.getElem?_range hkl])
    rw [he] at f1; injection f1 with f1; subst f1
    rw [he'] at f1'; injection f1' with f1'; subst f1'
    have hn := List.getElem?_eq_getElem hkl
    have hmem := List.getElem_mem hkl
    exact ejecta_kept_le time (fun r hr h e => (hk r hr h).1 (e ▸ hmem)) (hpos _ hmem)
      (thickness_rows c df dists thick a1 a2 k _ hn).2
      (thickness_rows c (df.filter keep) dists' thick' b1 b2 k _ hn).2 f2 f2'
  have hcols : List.Forall₂ (fun p p' : String × StratCol ℝ => p.1 = p'.1 ∧ List.Forall₂ (· ≤ ·) p.2.ice p'.2.ice ∧
      List.Forall₂ (· ≤ ·) p.2.ej p'.2.ej) cols0' cols0 := by
    have gen : ∀ (names : List String) (i : Nat) (acc acc' r r' : PyDict (StratCol ℝ)),
        i + names.length ≤ c.coldtrap_names.length →
        List.Forall₂ (fun p p' : String × StratCol ℝ => p.1 = p'.1 ∧ List.Forall₂ (· ≤ ·) p.2.ice p'.2.ice ∧
          List.Forall₂ (· ≤ ·) p.2.ej p'.2.ej) acc' acc →
        buildCols rows ej i names acc = .ok r → buildCols rows ej' i names acc' = .ok r' →
        List.Forall₂ (fun p p' : String × StratCol ℝ => p.1 = p'.1 ∧ List.Forall₂ (· ≤ ·) p.2.ice p'.2.ice ∧
          List.Forall₂ (· ≤ ·) p.2.ej p'.2.ej) r' r := by
      intro names
      induction names with
      | nil => intro i acc acc' r r' _ ha h1 h2; cases h1; cases h2; exact ha
      | cons n names ih =>
        intro i acc acc' r r' hl ha h1 h2
        simp only [List.length_cons] at hl
        unfold buildCols at h1 h2
        obtain ⟨e, e1, h1⟩ := bind_ok_inv h1
        obtain ⟨e', e1', h2⟩ := bind_ok_inv h2
        refine ih (i + 1) _ _ r r' (by omega) ?_ h1 h2
        exact set_forall₂ (fun p q h => h.1) ha ⟨rfl, arrLE_refl _,
          (hej i e e' (by omega) (pyGet_inv e1) (pyGet_inv e1')).1⟩
    exact gen _ 0 _ _ _ _ (by omega) .nil i3 j3
  obtain ⟨y1, -, y3⟩ := buildCols_spec rows ej' _ 0 [] cols0' hnd j3
  have hall' : ∀ p ∈ cols0', p.2.ice.length = time.length ∧ p.2.ej.length = time.length ∧
      p.2.src.length = time.length ∧ (∀ x ∈ p.2.ice, 0 ≤ x) ∧ ∀ x ∈ p.2.ej, 0 ≤ x := by
    intro p hp
    rcases y3 p hp with h8 | ⟨k, e', hkl, he', hp2⟩
    · cases h8
    · rw [Nat.zero_add] at he' hp2
      obtain ⟨f', f1', f2'⟩ := ji k k (by rw [List.getElem?_range hkl])
      rw [he'] at f1'; injection f1' with f1'; subst f1'
      obtain ⟨e, he, -⟩ := elem k hkl
      have hlen := ejectaThicknessTime_ne f2'
      obtain ⟨c1, c2⟩ := column_spec hkl rows (fun row hr => (k3 row hr).1)
      rw [hp2]
      refine ⟨by rw [c1, k2], hlen.2.1, hlen.2.2, ?_, (hej k e e' hkl he he').2⟩
      intro x hx
      obtain ⟨row, hr1, hr2⟩ := mem_column hx
      exact (k3 row hr1).2 x hr2
  have wf : WellFormed id c.coldtrap_names cols0' (overturnDepth c.overturn time) bd bf := {
    hasTraps := by
      intro name hn
      obtain ⟨j, hj⟩ := List.mem_iff_getElem?.1 hn
      obtain ⟨e, -, hcol⟩ := y1 j name hj
      exact List.mem_map.2 ⟨_, PyDict.mem_of_get hcol, rfl⟩
    iceLength := fun p hp => by rw [hov, (hall' p hp).1]
    ejLength := fun p hp => by rw [hov, (hall' p hp).2.1]
    iceNonneg := fun p hp => (hall' p hp).2.2.2.1
    iceRepr := fun _ _ _ _ => rfl
    overturnRepr := fun _ _ => rfl
    depthRows := by rw [hov, w1]
    fracRows := by rw [hov, w2]
    depthCols := fun row hr => by rw [w3 row hr]
    fracCols := fun row hr => by rw [w4 row hr]
    depthRepr := fun _ _ _ _ => rfl
    fracRange := w5 }
  obtain ⟨cols', b5, b6⟩ := C09_run_only_loses Rounding.id ejShield c.impact_gardening_costello c.coldtrap_names
    cols0' _ bd bf wf
  have hlen' : ∀ p ∈ cols', p.2.ice.length = time.length ∧ p.2.ej.length = time.length ∧
      p.2.src.length = time.length := by
    intro p hp
    obtain ⟨i, hi⟩ := List.mem_iff_getElem?.1 hp
    have hil := (List.getElem?_eq_some_iff.1 hi).1
    rw [← b6.length_eq] at hil
    obtain ⟨-, q2, q3, q4⟩ := (forall₂_iff_getElem?.1 b6).2 i _ _ (List.getElem?_eq_getElem hil) hi
    obtain ⟨z1, z2, z3, -⟩ := hall' _ (List.getElem_mem hil)
    exact ⟨by rw [← q4.length_eq, z1], by rw [q2, z2], by rw [q3, z3]⟩
  have rfl₂ : ∀ m : List (List ℝ), List.Forall₂ (List.Forall₂ (· ≥ ·)) m m := fun m =>
    List.forall₂_same.2 fun row _ => List.forall₂_same.2 fun x _ => le_rfl
  have fin := C73_run_monotone ejShield _ c.coldtrap_names cols0' cols0 cols' cols _ _ _ _ _ _
    (fun p hp => (hall' p hp).2.2.2) hcols (List.forall₂_same.2 fun x _ => le_rfl) (rfl₂ bd) (rfl₂ bf)
    (fun row hr x hx => (w5 row hr x hx).2) (fun row hr x hx => (w5 row hr x hx).1) b5 a5
  have hget' : ∀ (j : Nat) name, c.coldtrap_names[j]? = some name → ∃ q q', cols0'.get name = .ok q ∧
      cols'.get name = .ok q' ∧ q'.ej = q.ej := by
    intro j name hj
    obtain ⟨e, -, hcol⟩ := y1 j name hj
    obtain ⟨q', z1, z2, -⟩ := update_keeps_ej id ejShield _ c.coldtrap_names hnd bd bf hj _ 0 _ _ _ b5 hcol
    exact ⟨_, q', hcol, z1, z2⟩
  obtain ⟨out', b7⟩ := formatCsv_other (df' := df.filter keep) (cols' := cols') a6
    (trapAges_kept _ fun r hr h => (hk r hr h).1) (by
      intro name hn
      obtain ⟨j, hj⟩ := List.mem_iff_getElem?.1 hn
      obtain ⟨q, q', -, z, -⟩ := hget' j name hj
      exact ⟨q', z, hlen' _ (PyDict.mem_of_get z)⟩)
  refine ⟨out', runFrom_of b1 b2 b3 b4 b5 b7, ?_⟩
  obtain ⟨-, hfmt'⟩ := formatCsv_inv _ _ _ _ _ _ b7
  intro name hn
  obtain ⟨j, hj⟩ := List.mem_iff_getElem?.1 hn
  obtain ⟨r, -, -, col, table, m1, -, m2, m3, -⟩ := hfmt name hn
  obtain ⟨r', -, -, col', table', m1', -, m2', m3', -⟩ := hfmt' name hn
  refine ⟨_, _, _, _, m2, m2', m3, m3', ?_, (get_forall₂ (fun p q h => h.1) fin m1' m1).2⟩
  obtain ⟨q, q', z1, z2, z3⟩ := hget' j name hj
  obtain ⟨x1, -, -⟩ := buildCols_spec rows ej _ 0 [] cols0 hnd i3
  obtain ⟨e, -, hcol⟩ := x1 j name hj
  obtain ⟨p', v1, v2, -⟩ := update_keeps_ej id ejShield _ c.coldtrap_names hnd bd bf hj _ 0 _ _ _ a5 hcol
  rw [m1] at v1
  injection v1 with v1
  rw [m1'] at z2
  injection z2 with z2
  rw [v1, v2, z2, z3]
  exact (get_forall₂ (fun p q h => h.1) hcols z1 hcol).2.2

/-- **C151** of whole runs: with ballistic sedimentation off, what a run makes of its dated table has in every layer
of every cold trap at least as much ice as what it would make of the table without some craters and basins that are
no cold traps and bring no ice. -/
theorem C151_run (g : Gen σ) (hg : LawfulGen g) (c : RunCfg) (d : RunData) (hc : PhysicalCfg c)
    (hd : PhysicalData c d) (hl : Lunar c d) (hnd : c.coldtrap_names.Nodup) (hoff : c.ballistic_sed = false)
    (out : CsvOut) (h : runMain g c d = .ok out) :
    ∃ time df s, getTimeArray c.timestart c.timeend c.timestep = .ok time ∧
      craterBasinList g c d (g.init c.seed) = .ok (df, s) ∧ runFrom g c d time df s = .ok out ∧
      ∀ keep : CraterAge ℝ CraterCols → Bool,
        (∀ r ∈ df, keep r = false → r.rest.crater.cname ∉ c.coldtrap_names ∧ BringsNoIce r) →
        ∃ out', runFrom g c d time (df.filter keep) s = .ok out' ∧
          ∀ name ∈ c.coldtrap_names, ∃ ice ice' ej ej', out.ice.get name = .ok ice ∧ out'.ice.get name = .ok ice' ∧
            out.ej.get name = .ok ej ∧ out'.ej.get name = .ok ej' ∧
            List.Forall₂ (· ≤ ·) ej' ej ∧ List.Forall₂ (· ≤ ·) ice' ice := by
  rw [C139_run_from] at h
  obtain ⟨time, h1, h⟩ := bind_ok_inv h
  obtain ⟨⟨df, s⟩, h2, h⟩ := bind_ok_inv h
  have h1 := liftPy_ok h1
  have h2 := liftPy_ok h2
  exact ⟨time, df, s, h1, h2, h, fun keep hk => C151_protects g hg c d hc hd hnd hoff time df
    (craterBasinList_rad g hd _ _ _ h2)
    (fun t _ r hr x hx => C85_row_ejecta_partial g c d hc hd.sorted hl df _ _ h2 t r hr x hx) keep hk s out h⟩

/-- **C151** shipped files, any lawful generator and seed: with ballistic sedimentation off a run completes, and so
does the same run without the craters that are neither basins nor cold traps, which leaves no layer with more ice. -/
theorem C151_shipped (g : Gen σ) (hg : LawfulGen g) (nk : List (ℝ × ℝ))
    (sortAges : CraterTable → CraterTable) (sortNk : List (ℝ × ℝ) → List (ℝ × ℝ))
    (setOrder : List (List Char) → List (List Char)) (hs : SortDesc sortAges) (seed : Int) :
    ∃ time df s out out', getTimeArray (RunCfg.default seed).timestart (RunCfg.default seed).timeend
        (RunCfg.default seed).timestep = .ok time ∧ craterBasinList g { RunCfg.default seed with ballistic_sed := false }
        (shippedData nk sortAges sortNk setOrder) (g.init seed) = .ok (df, s) ∧
      runMain g { RunCfg.default seed with ballistic_sed := false } (shippedData nk sortAges sortNk setOrder) = .ok out ∧
      runFrom g { RunCfg.default seed with ballistic_sed := false } (shippedData nk sortAges sortNk setOrder) time
        (df.filter (fun r => r.rest.crater.isbasin ||
          decide (r.rest.crater.cname ∈ (RunCfg.default seed).coldtrap_names))) s = .ok out' ∧
      ∀ name ∈ (RunCfg.default seed).coldtrap_names, ∃ ice ice' ej ej', out.ice.get name = .ok ice ∧
        out'.ice.get name = .ok ice' ∧ out.ej.get name = .ok ej ∧ out'.ej.get name = .ok ej' ∧
        List.Forall₂ (· ≤ ·) ej' ej ∧ List.Forall₂ (· ≤ ·) ice' ice := by
  obtain ⟨c', hc'⟩ : ∃ t, t = { RunCfg.default seed with ballistic_sed := false } := ⟨_, rfl⟩
  have h : Gentler (RunCfg.default seed) c' := by
    rw [hc']
    exact ⟨rfl, (fun h => by cases h), le_rfl, Or.inl ⟨rfl, rfl⟩, le_rfl, id, le_rfl, le_rfl, le_rfl,
      le_rfl, le_rfl, le_rfl, le_rfl, le_rfl⟩
  have hd := default_data nk sortAges sortNk setOrder hs seed
  have hd' : PhysicalData c' (shippedData nk sortAges sortNk setOrder) := by
    rw [hc']
    exact ⟨hd.solar, hd.volc, hd.hops, hd.basins, hd.melt, hd.lost, hd.sorted⟩
  have hl' : Lunar c' (shippedData nk sortAges sortNk setOrder) := by
    have hl := default_lunar nk sortAges sortNk setOrder seed
    rw [hc']
    cases hl
    constructor <;> assumption
  have hp := gentler_physical h (default_physical seed)
  have hr := gentler_runnable h (default_runnable nk sortAges sortNk setOrder seed)
  have hoff : c'.ballistic_sed = false := by rw [hc']
  have hn : c'.coldtrap_names = (RunCfg.default seed).coldtrap_names := by rw [hc']
  have hse : c'.seed = seed := by rw [hc']; rfl
  rw [← hc']
  obtain ⟨out, h2⟩ := C72_returns g hg _ _ hp hd' hr
  obtain ⟨time, df, s, e1, e2, e3, e4⟩ := C151_run g hg c' _ hp hd' hl' hr.nodup hoff out h2
  obtain ⟨out', f1, f2⟩ := e4 (fun r => r.rest.crater.isbasin ||
    decide (r.rest.crater.cname ∈ (RunCfg.default seed).coldtrap_names)) (by
      intro r _ hk
      simp only [Bool.or_eq_false_iff, decide_eq_false_iff_not] at hk
      refine ⟨by rw [hn]; exact hk.2, fun hb => ?_⟩
      rw [hk.1] at hb
      cases hb)
  rw [hse] at e2
  rw [hn] at f2
  exact ⟨time, df, s, out, out', by rw [hc'] at e1; exact e1, e2, h2, f1, f2⟩

/-- C151 applies to a generator. -/
example (seed : Int) := C151_shipped constGen constGen_lawful [] sortDesc id id sortDesc_spec seed

/-- Ejecta really protect: a metre of gardening takes a metre of the three below, but none of it below five metres
of ejecta. -/
example :
    (updateStratCols (fun x : ℚ => x) (2 / 5) true ["A"] [("A", ⟨[3, 0], [0, 0], ["", ""]⟩)] [0, 1] [[0], [0]]
      [[0], [0]]).map (fun c => c.map (·.2.ice)) = .ok [[2, 0]] ∧
    (updateStratCols (fun x : ℚ => x) (2 / 5) true ["A"] [("A", ⟨[3, 0], [0, 5], ["", "B"]⟩)] [0, 1] [[0], [0]]
      [[0], [0]]).map (fun c => c.map (·.2.ice)) = .ok [[3, 0]] := by
  decide +kernel

/-- **C151** ballistic sedimentation must be off: a crater that lays five metres of ejecta on ten metres of ice, and
mixes them to that depth, takes half of the ice, and without the crater all of it stays. -/
theorem C151_sedimentation :
    bsedDepth twoWarm twoTemps id [30, 20, 10] [20] [false] [([some 1], [5])] = .ok [([0, 5, 0], [0, 1 / 2, 0])] ∧
    bsedDepth twoWarm twoTemps id [30, 20, 10] [] [] [([], [])] = .ok [([0, 0, 0], [0, 0, 0])] ∧
    (updateStratCols (fun x : ℚ => x) (2 / 5) true ["A"] [("A", ⟨[10, 0, 0], [0, 5, 0], ["", "B", ""]⟩)] [0, 0, 0]
      [[0], [5], [0]] [[0], [1 / 2], [0]]).map (fun c => c.map (·.2.ice)) = .ok [[5, 0, 0]] ∧
    (updateStratCols (fun x : ℚ => x) (2 / 5) true ["A"] [("A", ⟨[10, 0, 0], [0, 0, 0], ["", "", ""]⟩)] [0, 0, 0]
      [[0], [0], [0]] [[0], [0], [0]]).map (fun c => c.map (·.2.ice)) = .ok [[10, 0, 0]] := by
  decide +kernel

end MoonPIES
