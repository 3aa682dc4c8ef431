import Verif.Lemmas.Main
import Verif.Spec.Main
import Verif.Props.EjectaThick
import Verif.Props.TimeArray

/-!
# No stage of a run fails on usable inputs
-/

namespace MoonPIES

open Spec Real

variable {σ : Type}

theorem icyBasins_length (c : ImpCfg ℝ) (u : List ℝ) : (icyBasins c u).length = u.length := by
  unfold icyBasins hydratedBasins
  simp only []
  split_ifs <;> simp

theorem rawTable_cnames (g : Gen σ) (hg : LawfulGen g) (c : RunCfg) (d : RunData) (s : σ) :
    (rawTable g c d s).map (fun r => r.rest.crater.cname) =
      (d.craters ++ d.basins).map (·.cname) := by
  unfold rawTable
  have hl : (icyBasins c.imp (g.random d.basins.length s).1).length = d.basins.length := by
    rw [icyBasins_length, hg.random_length]
  rw [List.map_append, List.map_append, List.map_map]
  congr 1
  rw [List.map_zipWith]
  have : ∀ (l : List RawCrater) (m : List String), m.length = l.length →
      List.zipWith (fun r icy => (readRow true icy r).rest.crater.cname) l m = l.map (·.cname) := by
    intro l
    induction l with
    | nil => intro m _; simp
    | cons a l ih =>
      intro m hm
      cases m with
      | nil => simp at hm
      | cons b m => simp only [List.zipWith_cons_cons, List.map_cons, ih m (by simpa using hm)]; rfl
  exact this _ _ hl

theorem rawTable_mem (g : Gen σ) (c : RunCfg) (d : RunData) (s : σ) :
    ∀ r ∈ rawTable g c d s, ∃ raw ∈ d.craters ++ d.basins, ∃ b icy, r = readRow b icy raw := by
  intro r hr
  unfold rawTable at hr
  rcases List.mem_append.1 hr with hq | hq
  · obtain ⟨raw, h, rfl⟩ := List.mem_map.1 hq
    exact ⟨raw, List.mem_append_left _ h, false, "no", rfl⟩
  · rw [← List.map_uncurry_zip_eq_zipWith] at hq
    obtain ⟨p, hp, rfl⟩ := List.mem_map.1 hq
    exact ⟨p.1, List.mem_append_right _ (List.of_mem_zip hp).1, true, p.2, rfl⟩

/-- The crater table of a run: every listed crater with an age on the timestep grid within its
error bars. -/
theorem craterBasinList_ok (g : Gen σ) (hg : LawfulGen g) {c : RunCfg} {d : RunData}
    (hc : PhysicalCfg c) (hd : PhysicalData c d) (hr : Runnable c d) (s : σ) :
    ∃ df s', craterBasinList g c d s = .ok (df, s') ∧
      (df.map (fun r => r.rest.crater.cname)).Perm ((d.craters ++ d.basins).map (·.cname)) ∧
      ∀ r ∈ df, ∃ raw ∈ d.craters ++ d.basins, ∃ b icy, AgeWithin c.timestep (readRow b icy raw) r := by
  obtain ⟨raws, hraws⟩ : ∃ t, t = rawTable g c d s := ⟨_, rfl⟩
  have hb : ∀ r ∈ raws, 0 ≤ r.ageLow ∧ 0 ≤ r.ageUpp ∧ 0 < r.ageLow + r.ageUpp := by
    intro r h
    rw [hraws] at h
    obtain ⟨raw, h1, b, icy, rfl⟩ := rawTable_mem g c d s r h
    obtain ⟨b1, b2, b3⟩ := hr.bars raw h1
    refine ⟨by simp only [readRow]; positivity, by simp only [readRow]; positivity, ?_⟩
    simp only [readRow]
    rw [← add_mul]; positivity
  have hab : ∀ p ∈ raws.map (fun r => (truncA r, truncB r)), p.1 < p.2 := by
    intro p hp
    obtain ⟨r, h1, rfl⟩ := List.mem_map.1 hp
    obtain ⟨b1, b2, b3⟩ := hb r h1
    have hsig : 0 < sigOf r := by unfold sigOf; linarith
    simp only [truncA, truncB]
    exact div_lt_div_of_pos_right (by linarith) hsig
  obtain ⟨z, hz⟩ : ∃ t, t = g.truncnormEach (raws.map (fun r => (truncA r, truncB r)))
    (g.random d.basins.length s).2 := ⟨_, rfl⟩
  have hzl : z.1.length = raws.length := by
    rw [hz, hg.each_length _ _ hab, List.length_map]
  obtain ⟨mid, out, h1, h2, h3, h4⟩ := C28_randomized_ages d.sortAges hd.sorted c.timestep hc.ts
    (fun i => z.1.getD i 0) raws hb (by
      intro i r hi
      have hil : i < z.1.length := by rw [hzl]; exact (List.getElem?_eq_some_iff.1 hi).1
      have := hg.each_range _ (g.random d.basins.length s).2 hab i (truncA r, truncB r)
        (z.1[i]) (by rw [List.getElem?_map, hi]; rfl)
        (by rw [← hz]; exact List.getElem?_eq_getElem hil)
      simpa [List.getD_eq_getElem?_getD, List.getElem?_eq_getElem hil] using this)
  refine ⟨out, z.2, ?_, ?_, ?_⟩
  · unfold craterBasinList
    simp only []
    change (randomizeAges d.sortAges c.timestep (fun i => (g.truncnormEach ((rawTable g c d s).map
      (fun r => (truncA r, truncB r))) (g.random d.basins.length s).2).1.getD i 0)
      (rawTable g c d s)).bind (fun df => Except.ok (df, (g.truncnormEach ((rawTable g c d s).map
      (fun r => (truncA r, truncB r))) (g.random d.basins.length s).2).2)) = _
    rw [← hraws, ← hz, h1]
    rfl
  · rw [← rawTable_cnames g hg c d s, ← hraws]
    refine (h3.map _).trans ?_
    have : mid.map (fun r => r.rest.crater.cname) = raws.map (fun r => r.rest.crater.cname) := by
      clear h1 h3 hzl hz z hab hb hraws
      induction h2 with
      | nil => rfl
      | cons h _ ih => rw [List.map_cons, List.map_cons, ih, h.2.2.1]
    rw [this]
  · intro r hrm
    have hm := h3.mem_iff.1 hrm
    obtain ⟨i, hi⟩ := List.mem_iff_getElem?.1 hm
    have hil : i < raws.length := by
      rw [h2.length_eq]; exact (List.getElem?_eq_some_iff.1 hi).1
    have hw := (List.forall₂_iff_get.1 h2).2 i hil (List.getElem?_eq_some_iff.1 hi).1
    have e2 : mid.get ⟨i, (List.getElem?_eq_some_iff.1 hi).1⟩ = r := (List.getElem?_eq_some_iff.1 hi).2
    rw [e2] at hw
    obtain ⟨raw, q1, b, icy, q2⟩ := rawTable_mem g c d s (raws.get ⟨i, hil⟩)
      (by rw [← hraws]; exact List.get_mem raws _)
    rw [q2] at hw
    exact ⟨raw, q1, b, icy, hw⟩

/-- Everything the stages after the crater table need to know about it. -/
structure GoodTable (c : RunCfg) (d : RunData) (df : CraterTable) : Prop where
  perm : (df.map (fun r => r.rest.crater.cname)).Perm ((d.craters ++ d.basins).map (·.cname))
  rows : ∀ r ∈ df, ∃ raw ∈ d.craters ++ d.basins, ∃ b icy, AgeWithin c.timestep (readRow b icy raw) r

variable {c : RunCfg} {d : RunData} {df : CraterTable}

theorem goodTable_once (hr : Runnable c d) (hg : GoodTable c d df) (n : String)
    (hn : n ∈ c.coldtrap_names) :
    ∃ t, (df.map (·.rest.crater)).filter (fun c => decide (c.cname = n)) = [t] := by
  have h1 := hr.once n hn
  rw [← hg.perm.count_eq, List.count_eq_length_filter] at h1
  rw [← List.length_eq_one_iff, ← h1, List.filter_map, List.filter_map, List.length_map,
    List.length_map]
  congr 2

/-- A distance kept for the ejecta of a row at a trap. -/
theorem dists_mem (hr : Runnable c d) (hg : GoodTable c d df) (m : List (List (Option ℝ)))
    (h : coldtrapDists c.ej (df.map (·.rest.crater)) c.coldtrap_names = .ok m) :
    m.length = df.length ∧ ∀ (i : Nat) row r, df[i]? = some row → m[i]? = some r →
      ∀ x, some x ∈ r → ∃ raw ∈ d.craters ++ d.basins, ∃ t ∈ d.craters ++ d.basins, ∃ p,
        t.cname ∈ c.coldtrap_names ∧ t.psr = some p ∧ row.rest.crater.rad = raw.diam * 1000 / 2 ∧
        x = listedDist raw p ∧ row.rest.crater.rad < x := by
  obtain ⟨hl, hi⟩ := mapM_ok_inv _ _ _ h
  refine ⟨by simpa using hl, ?_⟩
  intro i row r h1 h2 x hx
  obtain ⟨r', h3, h4⟩ := hi i row.rest.crater (by rw [List.getElem?_map, h1]; rfl)
  rw [h2] at h3; cases h3
  obtain ⟨hl2, hi2⟩ := mapM_ok_inv _ _ _ h4
  obtain ⟨j, hj⟩ := List.mem_iff_getElem?.1 hx
  have hjl : j < c.coldtrap_names.length := by rw [← hl2]; exact (List.getElem?_eq_some_iff.1 hj).1
  obtain ⟨v, h5, h6⟩ := hi2 j _ (List.getElem?_eq_getElem hjl)
  rw [hj] at h5; cases h5
  have hn : c.coldtrap_names[j] ∈ c.coldtrap_names := List.getElem_mem hjl
  obtain ⟨t, ht⟩ := goodTable_once hr hg _ hn
  obtain ⟨raw, q1, b, icy, q2⟩ := hg.rows row (List.mem_of_getElem? h1)
  have hrest : row.rest = (readRow b icy raw).rest := q2.2.2.1
  have hrad : row.rest.crater.rad = raw.diam * 1000 / 2 := by rw [hrest]; rfl
  have hpos := hr.diam raw q1
  obtain ⟨-, ⟨p, hp, rfl⟩, hlt, -⟩ := (coldtrapDist_eq c.ej (df.map (·.rest.crater)) row.rest.crater t
    c.coldtrap_names[j] ht (by rw [hrad]; positivity) x).1 h6
  have htm : t ∈ (df.map (·.rest.crater)).filter (fun cr => decide (cr.cname = c.coldtrap_names[j])) := by
    rw [ht]; simp
  obtain ⟨htm1, htm2⟩ := List.mem_filter.1 htm
  obtain ⟨trow, h7, rfl⟩ := List.mem_map.1 htm1
  obtain ⟨traw, u1, b', icy', u2⟩ := hg.rows trow h7
  have htrest : trow.rest = (readRow b' icy' traw).rest := u2.2.2.1
  refine ⟨raw, q1, traw, u1, p, ?_, ?_, hrad, ?_, hlt⟩
  · have : trow.rest.crater.cname = c.coldtrap_names[j] := by simpa using htm2
    rw [htrest] at this
    change traw.cname = _ at this
    rw [this]; exact hn
  · rw [htrest] at hp; exact hp
  · rw [hrest]; rfl

theorem listedDist_le (r : RawCrater) (p : ℝ × ℝ) : listedDist r p ≤ π * 1737400 := by
  unfold listedDist
  have := InnerProductGeometry.angle_le_pi (direction r.lat r.lon) (direction p.1 p.2)
  linarith

theorem coldtrapDists_ok (hr : Runnable c d) (hg : GoodTable c d df) :
    ∃ m, coldtrapDists c.ej (df.map (·.rest.crater)) c.coldtrap_names = .ok m := by
  obtain ⟨m, hm, _⟩ := C37_coldtrap_dists c.ej (df.map (·.rest.crater)) c.coldtrap_names (by
    intro cr hcr
    obtain ⟨row, h1, rfl⟩ := List.mem_map.1 hcr
    obtain ⟨raw, q1, b, icy, q2⟩ := hg.rows row h1
    have := hr.diam raw q1
    rw [q2.2.2.1]
    simp only [readRow]
    positivity) (fun n hn => goodTable_once hr hg n hn)
  exact ⟨m, hm⟩

theorem thicknessMatrix_ok (hc : PhysicalCfg c) (hr : Runnable c d) (hg : GoodTable c d df)
    (m : List (List (Option ℝ)))
    (h : coldtrapDists c.ej (df.map (·.rest.crater)) c.coldtrap_names = .ok m) :
    ∃ th, thicknessMatrix c df m = .ok th ∧ th.length = df.length ∧
      ∀ (i : Nat) row, th[i]? = some row → ∀ x ∈ row, 0 ≤ x := by
  obtain ⟨hl, hm⟩ := dists_mem hr hg m h
  have key : ∀ p ∈ df.zip m, ∀ o ∈ p.2, ∃ t, finiteOf (ejThickness c.ej o p.1.rest.crater.rad) = .ok t ∧
      0 ≤ t := by
    intro p hp o ho
    obtain ⟨i, h1, h2⟩ := mem_zip_get.1 (show (p.1, p.2) ∈ df.zip m from hp)
    cases o with
    | none => exact ⟨0, rfl, le_rfl⟩
    | some x =>
      obtain ⟨raw, q1, t, q2, pp, q3, q4, q5, q6, q7⟩ := hm i p.1 p.2 h1 h2 x ho
      have hpos := hr.diam raw q1
      have hrad : 0 < p.1.rest.crater.rad := by rw [q5]; positivity
      by_cases hp1 : c.complex2peakring / 2 ≤ p.1.rest.crater.rad
      · have hpk : c.complex2peakring ≤ raw.diam * 1000 := by rw [q5] at hp1; linarith
        obtain ⟨k1, k2⟩ := hr.peak raw q1 hpk
        obtain ⟨k3, k4⟩ := k2 t q2 q3 pp q4
        have hlt := C38_transient_lt_final c.simple2complex c.complex2peakring
          (p.1.rest.crater.rad * 2) (by positivity) hr.s2c hr.c2pr hc.s2c.2
        obtain ⟨th, e1, e2⟩ := C36_basin_positive_partial c.ej x p.1.rest.crater.rad _ hrad hp1 rfl
          (by
            change final2transient c.simple2complex c.complex2peakring _ / 2 ≤ c.rad_moon
            rw [q5] at hlt ⊢; linarith) hc.grav hc.angle.1 hr.angle90
          (by
            change final2transient c.simple2complex c.complex2peakring _ / 2 < x
            linarith) (by rw [q6]; exact k4) (by rw [q6]; exact k3)
        exact ⟨th, by rw [e1]; rfl, e2.le⟩
      · by_cases hs : p.1.rest.crater.rad = c.simple2complex / 2
        · refine ⟨0, ?_, le_rfl⟩
          unfold ejThickness
          simp only []
          have w1 : ¬ p.1.rest.crater.rad < c.ej.simple2complex / 2 := by
            rw [hs]; exact lt_irrefl _
          have w2 : ¬ (c.ej.simple2complex / 2 < p.1.rest.crater.rad ∧
              p.1.rest.crater.rad < c.ej.complex2peakring / 2) := by
            rw [hs]; exact fun h => lt_irrefl _ h.1
          rw [if_neg (show ¬ c.ej.complex2peakring / 2 ≤ _ from hp1), if_neg w2, if_neg w1]
          rfl
        · obtain ⟨th, e1, e2⟩ := C36_positive_partial c.ej x p.1.rest.crater.rad
            (hrad.trans q7) hrad hc.s2c.2 hs (not_le.1 hp1)
          exact ⟨th, by rw [e1]; rfl, e2.le⟩
  obtain ⟨th, h1, h2, h3⟩ := mapM_ok (fun p : CraterAge ℝ CraterCols × List (Option ℝ) =>
      p.2.mapM (fun d => finiteOf (ejThickness c.ej d p.1.rest.crater.rad))) (df.zip m) (by
    intro p hp
    obtain ⟨o, ho, _⟩ := mapM_ok (fun d => finiteOf (ejThickness c.ej d p.1.rest.crater.rad)) p.2
      (fun o ho => by obtain ⟨t, ht, _⟩ := key p hp o ho; exact ⟨t, ht⟩)
    exact ⟨o, ho⟩)
  refine ⟨th, h1, by rw [h2]; simp [hl], ?_⟩
  intro i row hi x hx
  have hil : i < (df.zip m).length := by rw [← h2]; exact (List.getElem?_eq_some_iff.1 hi).1
  obtain ⟨b, hb1, hb2⟩ := h3 i _ (List.getElem?_eq_getElem hil)
  rw [hi] at hb1; cases hb1
  obtain ⟨hl3, hi3⟩ := mapM_ok_inv _ _ _ hb2
  obtain ⟨j, hj⟩ := List.mem_iff_getElem?.1 hx
  have hjl : j < ((df.zip m)[i].2).length := by rw [← hl3]; exact (List.getElem?_eq_some_iff.1 hj).1
  obtain ⟨y, hy1, hy2⟩ := hi3 j _ (List.getElem?_eq_getElem hjl)
  rw [hj] at hy1; cases hy1
  obtain ⟨t, ht, ht0⟩ := key _ (List.getElem_mem hil) _ (List.getElem_mem hjl)
  rw [ht] at hy2
  cases hy2
  exact ht0

theorem bsedArrays_ok (hd : PhysicalData c d) (hr : Runnable c d) (hg : GoodTable c d df)
    (m : List (List (Option ℝ)))
    (h : coldtrapDists c.ej (df.map (·.rest.crater)) c.coldtrap_names = .ok m)
    (time : List ℝ) (hne : time ≠ []) (thick : List (List ℝ)) :
    ∃ bd bf, bsedArrays c d time df m thick = .ok (bd, bf) := by
  obtain ⟨traps, htr⟩ : ∃ t, t = (List.range c.coldtrap_names.length).map
    (fun i => (column m i, column thick i)) := ⟨_, rfl⟩
  have hex : ∃ out, bsedDepth c.bsed d.melt (mixingRatio c.mixing_ratio_petro c.mixing_ratio_a
      c.mixing_ratio_b) time (df.map (·.age)) (df.map (·.rest.crater.isbasin)) traps = .ok out := by
    by_cases hb : c.bsed.ballistic_sed = true
    · obtain ⟨k1, k2, k3, k4⟩ := hr.covers hb
      obtain ⟨hl, hm⟩ := dists_mem hr hg m h
      obtain ⟨melts, e1, e2, -⟩ := C50_melt_frac_partial d.melt k1
        (traps.map (fun tr => (ejectaTemp c.bsed (df.map (·.rest.crater.isbasin))).zip
          (tr.1.map (mixingRatio c.mixing_ratio_petro c.mixing_ratio_a c.mixing_ratio_b)))) (by
          intro col hcol q hq mm hqm
          obtain ⟨tr, htrm, rfl⟩ := List.mem_map.1 hcol
          have hz := List.of_mem_zip (a := q.1) (b := q.2) hq
          obtain ⟨dd, hdd, hdd'⟩ := List.mem_map.1 hz.2
          rw [htr] at htrm
          obtain ⟨j, hj, rfl⟩ := List.mem_map.1 htrm
          obtain ⟨row, hrow, hdrow⟩ := mem_column hdd
          obtain ⟨i, hi⟩ := List.mem_iff_getElem?.1 hrow
          have hil : i < df.length := by rw [← hl]; exact (List.getElem?_eq_some_iff.1 hi).1
          rw [hqm] at hdd'
          cases dd with
          | none => cases hdd'
          | some x =>
            obtain ⟨raw, q1, t, q2, pp, q3, q4, q5, q6, q7⟩ :=
              hm i _ row (List.getElem?_eq_getElem hil) hi x hdrow
            have hpos := hr.diam raw q1
            have hx0 : 0 < x := lt_trans (by rw [q5]; positivity) q7
            obtain ⟨k, hk⟩ := List.mem_iff_getElem?.1 hz.1
            obtain ⟨b, -, hbt⟩ := (temperature_get c.bsed _ k q.1).1 hk
            exact k4 x mm hx0 (by rw [q6]; exact listedDist_le _ _) hdd' b q.1
              hbt) k2 k3
      obtain ⟨hml, hmr⟩ := getMeltFrac_range d.melt hd.melt _ _ e1
      obtain ⟨out, ho, _⟩ := mapM_ok (fun p => bsedColumn c.bsed time (df.map (·.age)) p.1.2
        (p.1.1.map (mixingRatio c.mixing_ratio_petro c.mixing_ratio_a c.mixing_ratio_b)) p.2)
        (traps.zip melts) (by
          intro p hp
          obtain ⟨dm, g1, _⟩ := bsedColumn_range c.bsed time hne (df.map (·.age)) p.1.2
            (p.1.1.map (mixingRatio c.mixing_ratio_petro c.mixing_ratio_a c.mixing_ratio_b)) p.2
            hd.lost (hmr _ (List.of_mem_zip (a := p.1) (b := p.2) hp).2)
          exact ⟨dm, g1⟩)
      refine ⟨out, ?_⟩
      unfold bsedDepth
      rw [if_neg (by simp [hb])]
      simp only [bind, Except.bind, e1]
      exact ho
    · obtain ⟨out', h1, h2, h3⟩ := C51_off c.bsed d.melt (mixingRatio c.mixing_ratio_petro
        c.mixing_ratio_a c.mixing_ratio_b) time (df.map (·.age))
        (df.map (·.rest.crater.isbasin)) traps (by simpa using hb)
      exact ⟨out', h1⟩
  obtain ⟨out, ho⟩ := hex
  refine ⟨(List.range time.length).map (column (out.map (·.1))),
    (List.range time.length).map (column (out.map (·.2))), ?_⟩
  unfold bsedArrays
  simp only [bind, Except.bind, ← htr, ho]

theorem ejectaThicknessTime_ok (tol tm : ℝ) (time : List ℝ) (hne : time ≠ [])
    (rows : List (EjRow ℝ)) : ∃ o, ejectaThicknessTime tol tm time rows = .ok o := by
  obtain ⟨o1, a1, a2, _⟩ := ages2time_spec tol time hne
    (rows.map (fun r => (r.age, some r.thick))) nansum (0 : ℝ)
  obtain ⟨o2, b1, b2, _⟩ := ages2time_spec tol time hne
    (rows.map (fun r => (r.age, if r.thick > tm then r.cname ++ "," else "")))
    (fun (acc s : String) => acc ++ s) ""
  refine ⟨(o1, o2.map rstripComma), ?_⟩
  unfold ejectaThicknessTime
  simp only [bind, Except.bind, a1, b1]

theorem buildCols_ok (ice : List (List ℝ)) (ej : List (List ℝ × List String)) :
    ∀ (names : List String) (i : Nat) (acc : PyDict (StratCol ℝ)), i + names.length ≤ ej.length →
    ∃ cols, buildCols ice ej i names acc = .ok cols
  | [], _, acc, _ => ⟨acc, rfl⟩
  | name :: rest, i, acc, h => by
    simp only [List.length_cons] at h
    have hi : i < ej.length := by omega
    obtain ⟨cols, hcols⟩ := buildCols_ok ice ej rest (i + 1)
      (acc.set name { ice := column ice i, ej := ej[i].1, src := ej[i].2 }) (by omega)
    refine ⟨cols, ?_⟩
    unfold buildCols
    rw [pyGet_some (List.getElem?_eq_getElem hi)]
    exact hcols

theorem initStratCols_ok (g : Gen σ) (hgen : LawfulGen g) (hc : PhysicalCfg c)
    (hd : PhysicalData c d) (hr : Runnable c d) (hg : GoodTable c d df) (time : List ℝ)
    (hne : time ≠ []) (thick : List (List ℝ)) (s : σ) :
    ∃ cols s', initStratCols g c d time df thick s = .ok (cols, s') := by
  obtain ⟨ej, h1, h2, _⟩ := mapM_ok (fun i => ejectaThicknessTime RunCfg.rtol c.thickness_min time
    (ejRows df (column thick i))) (List.range c.coldtrap_names.length)
    (fun i _ => ejectaThicknessTime_ok _ _ time hne _)
  obtain ⟨rows, s', h3, _⟩ := iceCols_ok g hgen hc hd df (by
    intro r hrm _
    obtain ⟨raw, q1, b, icy, q2⟩ := hg.rows r hrm
    have := hr.diam raw q1
    rw [q2.2.2.1]
    simp only [readRow]
    positivity) time hne s
  obtain ⟨cols, h4⟩ := buildCols_ok rows ej c.coldtrap_names 0 [] (by rw [h2]; simp)
  refine ⟨cols, s', ?_⟩
  unfold initStratCols
  simp only [bind, Except.bind, h1, h3, h4]

theorem timeArray_last (hc : PhysicalCfg c) (hr : Runnable c d) :
    ∃ time, getTimeArray c.timestart c.timeend c.timestep = .ok time ∧ time ≠ [] ∧
      c.timestep ∈ time := by
  have hdt := hc.ts
  have hq : 2 ≤ (c.timestart - c.timeend) / c.timestep := by
    rw [le_div_iff₀ hdt]; exact hr.span
  have hf : 2 ≤ ⌊(c.timestart - c.timeend) / c.timestep⌋ := by
    rw [Int.le_floor]; exact_mod_cast hq
  obtain ⟨n, hn⟩ := Int.eq_ofNat_of_zero_le
    (show 0 ≤ ⌊(c.timestart - c.timeend) / c.timestep⌋ by omega)
  have hn2 : 2 ≤ n := by omega
  have hp : pyInt ((c.timestart - c.timeend) / c.timestep) = n := by
    unfold pyInt; rw [if_pos (by linarith)]; exact hn
  have hm : c.timestep ∈ (List.range n).map (fun i : Nat => c.timestart +
      (i : ℝ) * ((c.timestep - c.timestart) / ((n : ℝ) - 1))) := by
    refine List.mem_map.2 ⟨n - 1, by simp; omega, ?_⟩
    have h3 : 0 < ((n : ℝ) - 1) := by
      have : (2 : ℝ) ≤ n := by exact_mod_cast hn2
      linarith
    have h5 : ((n - 1 : Nat) : ℝ) = (n : ℝ) - 1 := by rw [Nat.cast_sub (by omega)]; simp
    rw [h5, mul_div_cancel₀ _ h3.ne']; ring
  refine ⟨_, ?_, List.ne_nil_of_mem hm, hm⟩
  unfold getTimeArray
  rw [if_neg hdt.ne', hp]
  unfold linspace
  rw [if_neg (by omega), if_neg (by omega)]
  simp

/-- Everything before the main loop succeeds. -/
theorem setup_ok (g : Gen σ) (hgen : LawfulGen g) (hc : PhysicalCfg c) (hd : PhysicalData c d)
    (hr : Runnable c d) :
    ∃ st, setup g c d = .ok st ∧ c.timestep ∈ st.time ∧ GoodTable c d st.df := by
  obtain ⟨time, h1, hne, hlast⟩ := timeArray_last hc hr
  obtain ⟨df, s1, h2, p1, p2⟩ := craterBasinList_ok g hgen hc hd hr (g.init c.seed)
  have hg : GoodTable c d df := ⟨p1, p2⟩
  obtain ⟨m, h3⟩ := coldtrapDists_ok hr hg
  obtain ⟨th, h4, -, -⟩ := thicknessMatrix_ok hc hr hg m h3
  obtain ⟨cols, s2, h5⟩ := initStratCols_ok g hgen hc hd hr hg time hne th s1
  obtain ⟨bd, bf, h6⟩ := bsedArrays_ok hd hr hg m h3 time hne th
  refine ⟨{ time := time, df := df, cols := cols, bsedDepth := bd, bsedFrac := bf,
            overturn := overturnDepth c.overturn time }, ?_, hlast, hg⟩
  unfold setup
  simp only [bind, Except.bind, h1, h2, h3, h4, h5, h6, liftPy]

theorem trapAges_ok (hr : Runnable c d) (hg : GoodTable c d df) :
    ∃ ages, trapAges df c.coldtrap_names = .ok ages := by
  obtain ⟨rows, h1, _⟩ := mapM_ok (rowsNamed df) c.coldtrap_names (by
      intro n hn
      unfold rowsNamed
      obtain ⟨t, ht⟩ := goodTable_once hr hg n hn
      cases hf : df.filter (fun r => decide (r.rest.crater.cname = n)) with
      | nil =>
        rw [List.filter_map] at ht
        have hf' : df.filter ((fun cr : Crater => decide (cr.cname = n)) ∘ fun r => r.rest.crater) = [] := hf
        rw [hf'] at ht
        cases ht
      | cons r l => exact ⟨_, rfl⟩)
  refine ⟨rows.flatten, ?_⟩
  unfold trapAges
  simp only [bind, Except.bind, h1]

theorem formatLoop_ok (c : RunCfg) (time : List ℝ) (cols : PyDict (StratCol ℝ)) :
    ∀ (ages : List (String × ℝ)) (acc : CsvOut × List (List String)),
    (∀ p ∈ ages, ∃ col table, cols.get p.1 = .ok col ∧ makeStratCol c.thickness_min RunCfg.rtol
      c.strat_after_age p.2 (toSteps time col) = .ok table) →
    ∃ res, formatLoop c time cols ages acc = .ok res ∧ res.2.length = acc.2.length + ages.length
  | [], acc, _ => ⟨acc, rfl, rfl⟩
  | (name, age) :: rest, (out, srcs), h => by
    obtain ⟨col, table, h1, h2⟩ := h (name, age) (by simp)
    obtain ⟨res, h3, h4⟩ := formatLoop_ok c time cols rest
      ({ out with ej := out.ej.set name col.ej, ice := out.ice.set name col.ice,
                  strat := out.strat.set name table }, srcs ++ [col.src])
      (fun p hp => h p (by simp [hp]))
    refine ⟨res, ?_, ?_⟩
    · unfold formatLoop
      simp only [bind, Except.bind, h1, h2]
      exact h3
    · rw [h4]; simp; omega

theorem toSteps_time (time : List ℝ) (col : StratCol ℝ) (h1 : col.ice.length = time.length)
    (h2 : col.ej.length = time.length) (h3 : col.src.length = time.length) :
    (toSteps time col).map (·.time) = time ∧ (toSteps time col).map (·.ice) = col.ice ∧
      (toSteps time col).map (·.ejecta) = col.ej := by
  unfold toSteps
  refine ⟨?_, ?_, ?_⟩
  · apply List.ext_getElem
    · simp [h1, h2, h3]
    · intro i a b; simp
  · apply List.ext_getElem
    · simp [h1, h2, h3]
    · intro i a b; simp
  · apply List.ext_getElem
    · simp [h1, h2, h3]
    · intro i a b; simp

theorem makeStratCol_total (tm tol age : ℝ) (saa : Bool) (steps : List (Step ℝ))
    (h : ∃ s ∈ steps, s.time < age + |age| * tol) :
    ∃ out, makeStratCol tm tol saa age steps = .ok out := by
  cases saa with
  | false => exact ⟨_, rfl⟩
  | true =>
    by_contra hn
    push Not at hn
    have := (makeStratCol_fails tm tol age steps).1 hn
    obtain ⟨s, hs, hlt⟩ := h
    exact absurd (this s hs) (not_le.2 hlt)

end MoonPIES
