import Verif.Model.Bsed
import Verif.Props.Melt
import Verif.Spec.Bsed

/-!
# C51: ballistic sedimentation depth
-/

namespace MoonPIES

open Spec

set_option linter.unusedSectionVars false

variable {K : Type} [Field K] [LinearOrder K] [IsStrictOrderedRing K]

/-- Spec: a crater of age `a` belongs to timestep `i`. -/
def LandsAt (tol : K) (time : List K) (a : K) (i : Nat) : Prop :=
  InRange tol time a ∧ Nearest time a i

open Classical in
/-- Spec: total thickness of the ejecta landing at step `i`. -/
noncomputable def landed (tol : K) (time ages thick : List K) (i : Nat) : K :=
  (((ages.zip thick).filter (fun p => decide (LandsAt tol time p.1 i))).map (·.2)).sum

theorem mem_zip_get {A B : Type} {l : List A} {m : List B} {a : A} {b : B} :
    (a, b) ∈ l.zip m ↔ ∃ k : Nat, l[k]? = some a ∧ m[k]? = some b := by
  constructor
  · intro h
    obtain ⟨k, hk⟩ := List.mem_iff_getElem?.1 h
    rw [List.getElem?_zip_eq_some] at hk
    exact ⟨k, hk⟩
  · rintro ⟨k, h⟩
    exact List.mem_iff_getElem?.2 ⟨k, List.getElem?_zip_eq_some.2 h⟩

theorem thick_time (tol : K) (time : List K) (hne : time ≠ []) (ages thick : List K) :
    ∃ out, ages2time tol time (ages.zip (thick.map some)) nansum 0 = .ok out ∧
      out.length = time.length ∧ ∀ i : Nat, i < time.length → out[i]? = some (landed tol time ages thick i) := by
  classical
  obtain ⟨out, h1, h2, h3⟩ := ages2time_spec tol time hne (ages.zip (thick.map some)) nansum (0 : K)
  refine ⟨out, h1, h2, ?_⟩
  intro i hi
  rw [h3 i hi, foldl_nansum, zero_add]
  congr 1
  unfold itemsAt landed
  rw [List.zip_map_right, List.filter_map, List.map_map, List.filterMap_map]
  rw [List.filterMap_congr (g := fun p : K × K => some p.2) (by intro p _; rfl)]
  have hf : ∀ l : List (K × K), l.filterMap (fun p => some p.2) = l.map (·.2) := by
    intro l; induction l with
    | nil => rfl
    | cons p l ih => simp [ih]
  rw [hf, List.filter_congr (q := fun p : K × K => decide (LandsAt tol time p.1 i))]
  intro p _
  rw [Bool.eq_iff_iff]
  simp only [LandsAt, Function.comp, Prod.map, id, decide_eq_true_eq]
  exact (@decide_eq_true_iff _ (_)).symm

theorem landed_nonneg (tol : K) (time ages thick : List K) (i : Nat) (h : ∀ x ∈ thick, 0 ≤ x) :
    0 ≤ landed tol time ages thick i := by
  classical
  unfold landed
  apply List.sum_nonneg
  intro x hx
  obtain ⟨p, hp, rfl⟩ := List.mem_map.1 hx
  have := (List.mem_filter.1 hp).1
  exact h _ (List.of_mem_zip (a := p.1) (b := p.2) this).2

theorem landed_zero (tol : K) (time ages thick : List K) (i : Nat)
    (h : ∀ (k : Nat) a x, ages[k]? = some a → thick[k]? = some x → LandsAt tol time a i → x = 0) :
    landed tol time ages thick i = 0 := by
  classical
  unfold landed
  apply List.sum_eq_zero
  intro x hx
  obtain ⟨p, hp, rfl⟩ := List.mem_map.1 hx
  have hm := List.mem_filter.1 hp
  obtain ⟨k, h1, h2⟩ := mem_zip_get.1 (show (p.1, p.2) ∈ ages.zip thick from hm.1)
  exact h k p.1 p.2 h1 h2 (by simpa using hm.2)

theorem temperature_get (cfg : BsedCfg K) (isbasin : List Bool) (k : Nat) (t : K) :
    (ejectaTemp cfg isbasin)[k]? = some t ↔
      ∃ b, isbasin[k]? = some b ∧ EjectaTemperature cfg b t := by
  unfold ejectaTemp
  simp only []
  rw [List.getElem?_map]
  cases isbasin[k]? with
  | none => simp
  | some b =>
    rw [Option.map_some, Option.some.injEq]
    constructor
    · intro h
      refine ⟨b, rfl, ?_⟩
      rw [← h]
      cases b with
      | false => exact .crater
      | true =>
        simp only [if_true]
        split
        · exact .warm (by assumption)
        · exact .cold (by simpa using (by assumption : ¬ cfg.basin_ejecta_temp_warm = true))
    · rintro ⟨b', hb, ht⟩
      cases hb
      cases ht with
      | crater => simp
      | warm h => simp [h]
      | cold h => simp [h]

/-- **C51** switched off: all zeros, one value per timestep and trap. -/
theorem C51_off (cfg : BsedCfg K) (tbl : MeltTable K) (mr : Option K → Option K)
    (time ages : List K) (isbasin : List Bool) (traps : List (List (Option K) × List K))
    (hoff : cfg.ballistic_sed = false) :
    ∃ out, bsedDepth cfg tbl mr time ages isbasin traps = .ok out ∧ out.length = traps.length ∧
      ∀ p ∈ out, p.1.length = time.length ∧ p.2.length = time.length ∧
        (∀ x ∈ p.1, x = 0) ∧ ∀ x ∈ p.2, x = 0 := by
  refine ⟨traps.map (fun _ => (time.map (fun _ => 0), time.map (fun _ => 0))), ?_, by simp, ?_⟩
  · unfold bsedDepth
    rw [if_pos (by simp [hoff])]
  · intro p hp
    obtain ⟨t, _, rfl⟩ := List.mem_map.1 hp
    refine ⟨by simp, by simp, ?_, ?_⟩ <;>
    · intro x hx
      obtain ⟨_, _, rfl⟩ := List.mem_map.1 hx
      rfl

/-- **C51** switched on, with the melt table covering the queries and thicknesses
non-negative: depth and melt fraction at each timestep.  The depth is the ejecta landing at
the step times the largest mixing ratio there, so 0 when no ejecta lands; the melt fraction
lies between 0 and the configured share and is 0 when no crater with a known mixing ratio
lands.  As a share of what can be lost, it is at least what the melt table has around the mixing
ratio and temperature of each landing crater (the temperature for basins if it is one), and at
most what the table has around all of them. -/
theorem C51_depth (cfg : BsedCfg K) (tbl : MeltTable K) (mr : Option K → Option K)
    (time ages : List K) (isbasin : List Bool) (traps : List (List (Option K) × List K))
    (hon : cfg.ballistic_sed = true) (hne : time ≠ []) (hfl : 0 ≤ cfg.ballistic_sed_frac_lost)
    (hc : tbl.Complete) (hr : tbl.rows ≠ []) (ht : tbl.temps ≠ [])
    (h01 : ∀ m t v, tbl.at m t = some v → 0 ≤ v ∧ v ≤ 1)
    (hthick : ∀ tr ∈ traps, ∀ x ∈ tr.2, 0 ≤ x)
    (hlen : ∀ tr ∈ traps, tr.1.length = ages.length) (hbas : isbasin.length = ages.length)
    (hin : ∀ tr ∈ traps, ∀ d ∈ tr.1, ∀ m, mr d = some m → ∀ b ∈ isbasin, ∀ t,
      EjectaTemperature cfg b t → ∃ m0 m1 t0 t1, InBlock tbl m t m0 m1 t0 t1) :
    ∃ out, bsedDepth cfg tbl mr time ages isbasin traps = .ok out ∧ out.length = traps.length ∧
      ∀ (j : Nat) dist thick, traps[j]? = some (dist, thick) → ∃ depth melt,
        out[j]? = some (depth, melt) ∧ depth.length = time.length ∧ melt.length = time.length ∧
        ∀ i : Nat, i < time.length → ∃ d f, depth[i]? = some d ∧ melt[i]? = some f ∧
          (∃ r, d = landed cfg.rtol time ages thick i * r ∧ ∀ b, r ≤ b ↔ 0 ≤ b ∧
            ∀ (k : Nat) a dk m, ages[k]? = some a → dist[k]? = some dk → mr dk = some m →
              LandsAt cfg.rtol time a i → m ≤ b) ∧
          0 ≤ d ∧
          ((∀ (k : Nat) a x, ages[k]? = some a → thick[k]? = some x →
            LandsAt cfg.rtol time a i → x = 0) → d = 0) ∧
          0 ≤ f ∧ f ≤ cfg.ballistic_sed_frac_lost ∧
          ((∀ (k : Nat) a dk, ages[k]? = some a → dist[k]? = some dk →
            LandsAt cfg.rtol time a i → mr dk = none) → f = 0) ∧
          (∀ (k : Nat) a dk b m t m0 m1 t0 t1 lo, ages[k]? = some a → dist[k]? = some dk →
            isbasin[k]? = some b → LandsAt cfg.rtol time a i → mr dk = some m →
            EjectaTemperature cfg b t → InBlock tbl m t m0 m1 t0 t1 →
            (∀ m' t' v, m0 ≤ m' → m' ≤ m1 → t0 ≤ t' → t' ≤ t1 → tbl.at m' t' = some v → lo ≤ v) →
            lo * cfg.ballistic_sed_frac_lost ≤ f) ∧
          ∀ hi, 0 ≤ hi → (∀ (k : Nat) a dk b m t, ages[k]? = some a → dist[k]? = some dk →
            isbasin[k]? = some b → LandsAt cfg.rtol time a i → mr dk = some m →
            EjectaTemperature cfg b t → ∃ m0 m1 t0 t1, InBlock tbl m t m0 m1 t0 t1 ∧
            ∀ m' t' v, m0 ≤ m' → m' ≤ m1 → t0 ≤ t' → t' ≤ t1 → tbl.at m' t' = some v → v ≤ hi) →
            f ≤ hi * cfg.ballistic_sed_frac_lost := by
  obtain ⟨melts, hm, hml, hmj⟩ := C50_melt_frac_partial tbl hc
    (traps.map (fun tr => (ejectaTemp cfg isbasin).zip (tr.1.map mr))) (by
      intro col hcol q hq m hqm
      obtain ⟨tr, htr, rfl⟩ := List.mem_map.1 hcol
      have hz := List.of_mem_zip (a := q.1) (b := q.2) hq
      obtain ⟨d, hd, hd'⟩ := List.mem_map.1 hz.2
      obtain ⟨k, hk⟩ := List.mem_iff_getElem?.1 hz.1
      obtain ⟨b, hb, hbt⟩ := (temperature_get cfg isbasin k q.1).1 hk
      exact hin tr htr d hd m (hd'.trans hqm) b (List.mem_of_getElem? hb) q.1 hbt) hr ht
  -- one trap
  have hone : ∀ p : (List (Option K) × List K) × List (Option K), ∃ dm,
      bsedColumn cfg time ages p.1.2 (p.1.1.map mr) p.2 = .ok dm ∧
      dm.1.length = time.length ∧ dm.2.length = time.length ∧
      ∀ i : Nat, i < time.length → ∃ d f F, dm.1[i]? = some d ∧ dm.2[i]? = some f ∧
        f = F * cfg.ballistic_sed_frac_lost ∧
        (∃ r, d = landed cfg.rtol time ages p.1.2 i * r ∧ ∀ b, r ≤ b ↔ 0 ≤ b ∧
            ∀ (k : Nat) a dk m, ages[k]? = some a → p.1.1[k]? = some dk → mr dk = some m →
              LandsAt cfg.rtol time a i → m ≤ b) ∧
        ∀ b, F ≤ b ↔ 0 ≤ b ∧ ∀ a v, (a, some v) ∈ ages.zip p.2 → LandsAt cfg.rtol time a i → v ≤ b := by
    rintro ⟨⟨dist, thick⟩, ms⟩
    obtain ⟨o1, a1, a2, a3⟩ := thick_time cfg.rtol time hne ages thick
    obtain ⟨o2, b1, b2, b3⟩ := C16_maximum cfg.rtol time hne (ages.zip (dist.map mr))
    obtain ⟨o3, c1, c2, c3⟩ := C16_maximum cfg.rtol time hne (ages.zip ms)
    refine ⟨(List.zipWith (· * ·) o1 o2, o3.map (fun m => m * cfg.ballistic_sed_frac_lost)),
      ?_, ?_, ?_, ?_⟩
    · unfold bsedColumn
      simp only [bind, Except.bind]
      rw [a1]; simp only []
      rw [b1]; simp only []
      rw [c1]
    · simp [a2, b2]
    · simp [c2]
    · intro i hi
      have e2 : o2[i]? = some (o2[i]'(by omega)) := List.getElem?_eq_getElem _
      have e3 : o3[i]? = some (o3[i]'(by omega)) := List.getElem?_eq_getElem _
      refine ⟨landed cfg.rtol time ages thick i * o2[i]'(by omega),
        o3[i]'(by omega) * cfg.ballistic_sed_frac_lost, o3[i]'(by omega), ?_, ?_, rfl,
        ⟨o2[i]'(by omega), rfl, ?_⟩, ?_⟩
      · simp only [List.getElem?_zipWith, a3 i hi, e2]
      · simp only [List.getElem?_map, e3]; rfl
      · intro b
        rw [b3 i _ e2 b]
        refine and_congr_right (fun _ => ?_)
        constructor
        · intro h k a dk m h1 h2 h3 h4
          exact h a m (mem_zip_get.2 ⟨k, h1, by rw [List.getElem?_map, h2]; simp [h3]⟩) h4.1 h4.2
        · intro h a v hz hr hn
          obtain ⟨k, h1, h2⟩ := mem_zip_get.1 hz
          rw [List.getElem?_map, Option.map_eq_some_iff] at h2
          obtain ⟨dk, h2, h3⟩ := h2
          exact h k a dk v h1 h2 h3 ⟨hr, hn⟩
      · intro b
        rw [c3 i _ e3 b]
        refine and_congr_right (fun _ => ?_)
        exact ⟨fun h a v hz hl => h a v hz hl.1 hl.2, fun h a v hz hr hn => h a v hz ⟨hr, hn⟩⟩
  obtain ⟨out, ho, hol, hog⟩ := mapM_ok
    (fun p : (List (Option K) × List K) × List (Option K) =>
      bsedColumn cfg time ages p.1.2 (p.1.1.map mr) p.2) (traps.zip melts)
    (fun p _ => (hone p).imp (fun _ h => h.1))
  have hlm : melts.length = traps.length := by simpa using hml
  refine ⟨out, ?_, by simpa [hlm] using hol, ?_⟩
  · unfold bsedDepth
    rw [if_neg (by simp [hon])]
    simp only [bind, Except.bind]
    rw [hm]
    exact ho
  · intro j dist thick hj
    obtain ⟨ms, hms, hmsl, hmsi⟩ := hmj j ((ejectaTemp cfg isbasin).zip (dist.map mr))
      (by rw [List.getElem?_map, hj]; rfl)
    obtain ⟨dm, hdm, hcm⟩ := hog j ((dist, thick), ms) (List.getElem?_zip_eq_some.2 ⟨hj, hms⟩)
    obtain ⟨dm', g1, g2, g3, g4⟩ := hone ((dist, thick), ms)
    rw [hcm] at g1
    cases g1
    have htr := List.mem_of_getElem? hj
    refine ⟨dm.1, dm.2, hdm, g2, g3, ?_⟩
    intro i hi
    obtain ⟨d, f, F, e1, e2, e3, ⟨r, hr1, hr2⟩, hF⟩ := g4 i hi
    have hr0 : 0 ≤ r := ((hr2 r).1 le_rfl).1
    have hl0 := landed_nonneg cfg.rtol time ages thick i (hthick _ htr)
    have hF0 : 0 ≤ F := ((hF F).1 le_rfl).1
    -- the melt of a crater
    have hv : ∀ a v, (a, some v) ∈ ages.zip ms → LandsAt cfg.rtol time a i →
        v ≤ 1 ∧ ((∀ (k : Nat) a dk, ages[k]? = some a → dist[k]? = some dk →
          LandsAt cfg.rtol time a i → mr dk = none) → v = 0) := by
      intro a v hz hl
      obtain ⟨k, h1, h2⟩ := mem_zip_get.1 hz
      have hk : k < ages.length := (List.getElem?_eq_some_iff.1 h1).1
      have hdl : dist.length = ages.length := hlen _ htr
      have hd : dist[k]? = some (dist[k]'(by omega)) := List.getElem?_eq_getElem _
      have htl : (ejectaTemp cfg isbasin).length = ages.length := by simp [ejectaTemp, hbas]
      have htk : (ejectaTemp cfg isbasin)[k]? = some ((ejectaTemp cfg isbasin)[k]'(by omega)) :=
        List.getElem?_eq_getElem _
      obtain ⟨y, hy, hy0, hyb⟩ := hmsi k ((ejectaTemp cfg isbasin)[k]'(by omega)) (mr (dist[k]'(by omega)))
        (List.getElem?_zip_eq_some.2 ⟨htk, by rw [List.getElem?_map, hd]; rfl⟩)
      rw [h2] at hy
      simp only [Option.some.injEq] at hy
      subst hy
      constructor
      · cases hmr : mr (dist[k]'(by omega)) with
        | none => rw [hy0 hmr]; exact zero_le_one
        | some m =>
          obtain ⟨b, hb', hbt⟩ := (temperature_get cfg isbasin k _).1 htk
          obtain ⟨m0, m1, t0, t1, hb⟩ := hin _ htr _ (List.mem_of_getElem? hd) m hmr b
            (List.mem_of_getElem? hb') _ hbt
          exact (hyb m m0 m1 t0 t1 0 1 hmr hb (fun m' t' v _ _ _ _ hv => h01 m' t' v hv)).2
      · intro hnone
        exact hy0 (hnone k a _ h1 hd hl)
    refine ⟨d, f, e1, e2, ⟨r, hr1, hr2⟩, ?_, ?_, ?_, ?_, ?_, ?_, ?_⟩
    · rw [hr1]; exact mul_nonneg hl0 hr0
    · intro h
      rw [hr1, landed_zero _ _ _ _ _ h, zero_mul]
    · rw [e3]; exact mul_nonneg hF0 hfl
    · rw [e3]
      have : F ≤ 1 := (hF 1).2 ⟨zero_le_one, fun a v hz hl => (hv a v hz hl).1⟩
      calc F * cfg.ballistic_sed_frac_lost ≤ 1 * cfg.ballistic_sed_frac_lost :=
            mul_le_mul_of_nonneg_right this hfl
        _ = _ := one_mul _
    · intro h
      have : F ≤ 0 := (hF 0).2 ⟨le_rfl, fun a v hz hl => ((hv a v hz hl).2 h).le⟩
      rw [e3, le_antisymm this hF0, zero_mul]
    · intro k a dk b m t m0 m1 t0 t1 lo h1 h2 h3 hl hm' ht' hb hlo
      have htk := (temperature_get cfg isbasin k t).2 ⟨b, h3, ht'⟩
      obtain ⟨y, hy, -, hyb⟩ := hmsi k t (mr dk)
        (List.getElem?_zip_eq_some.2 ⟨htk, by rw [List.getElem?_map, h2]; rfl⟩)
      rw [e3]
      refine mul_le_mul_of_nonneg_right ?_ hfl
      refine le_trans (hyb m m0 m1 t0 t1 lo 1 hm' hb
        (fun m' t' v a1 a2 a3 a4 hv => ⟨hlo m' t' v a1 a2 a3 a4 hv, (h01 m' t' v hv).2⟩)).1 ?_
      exact ((hF F).1 le_rfl).2 a y (mem_zip_get.2 ⟨k, h1, hy⟩) hl
    · intro hi h0 hall
      rw [e3]
      refine mul_le_mul_of_nonneg_right ((hF hi).2 ⟨h0, ?_⟩) hfl
      intro a v hz hl
      obtain ⟨k, h1, h2⟩ := mem_zip_get.1 hz
      have hk : k < ages.length := (List.getElem?_eq_some_iff.1 h1).1
      have hdl : dist.length = ages.length := hlen _ htr
      have hd : dist[k]? = some (dist[k]'(by omega)) := List.getElem?_eq_getElem _
      have htl : (ejectaTemp cfg isbasin).length = ages.length := by simp [ejectaTemp, hbas]
      have htk : (ejectaTemp cfg isbasin)[k]? = some ((ejectaTemp cfg isbasin)[k]'(by omega)) :=
        List.getElem?_eq_getElem _
      obtain ⟨y, hy, hy0, hyb⟩ := hmsi k ((ejectaTemp cfg isbasin)[k]'(by omega)) (mr (dist[k]'(by omega)))
        (List.getElem?_zip_eq_some.2 ⟨htk, by rw [List.getElem?_map, hd]; rfl⟩)
      rw [h2] at hy
      simp only [Option.some.injEq] at hy
      subst hy
      obtain ⟨b, hb', hbt⟩ := (temperature_get cfg isbasin k _).1 htk
      cases hmr : mr (dist[k]'(by omega)) with
      | none => rw [hy0 hmr]; exact h0
      | some m =>
        obtain ⟨m0, m1, t0, t1, hb, hc'⟩ := hall k a _ b m _ h1 hd hb' hl hmr hbt
        exact (hyb m m0 m1 t0 t1 0 hi hmr hb
          (fun m' t' v a1 a2 a3 a4 hv => ⟨(h01 m' t' v hv).1, hc' m' t' v a1 a2 a3 a4 hv⟩)).2

/-- Two craters in one step (one of them a basin, with a missing distance), a third outside
the time range. -/
example : bsedDepth (⟨true, 1 / 2, 100, false, 300, 200, 1 / 1000000⟩ : BsedCfg ℚ)
    ⟨[100, 200], [(0, [0, 0]), (1, [0, 1 / 2]), (2, [1 / 2, 1])]⟩ (fun d => d) [4, 3, 2, 1]
    [3, 3, 2, 9] [false, true, true, false]
    [([some 1, none, some 2, some 1], [10, 0, 5, 7]), ([none, some 1, none, none], [0, 1, 0, 0])] =
      .ok [([0, 10, 10, 0], [0, 0, 1 / 2, 0]), ([0, 1, 0, 0], [0, 1 / 4, 0, 0])] := by
  decide +kernel

end MoonPIES
