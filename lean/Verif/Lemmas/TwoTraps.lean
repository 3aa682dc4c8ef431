import Verif.Props.Traps
import Verif.Props.Supply
import Mathlib.Analysis.Real.Pi.Bounds
/-!
# Two cold traps and one crater

A small run for C129: crater `X` throws ejecta onto the cold traps `A`, one degree away, and `B`,
half a degree away.  Mixing ratios come out in degrees, the impactors are dry and nothing is
gardened, so that the ice of `A` can be computed by hand.
-/

namespace MoonPIES

open Spec Real


/-- The configuration with the cold traps `ns`. -/
noncomputable def toyTraps (ns : List String) : RunCfg :=
  { RunCfg.default 0 with
    coldtrap_names := ns, solar_wind_ice := false, ballistic_hop_moores := false,
    impact_ice_comets := false, hydrated_wt_pct := 0, timestart := 3e9, timestep := 1e9,
    mixing_ratio_petro := false, mixing_ratio_a := 180000 / (π * 1737400), mixing_ratio_b := 1,
    basin_ejecta_temp_init_cold := 140, overturn_depth_present := 0 }

/-- Cold trap at the pole. -/
noncomputable def toyA : RawCrater := ⟨"A", -90, 0, some (-90, 0), 1, 4.5, 0.5, 0.5⟩
/-- Cold trap a degree and a half from the pole. -/
noncomputable def toyB : RawCrater := ⟨"B", -88.5, 0, some (-88.5, 0), 1, 3.5, 0.5, 0.5⟩
/-- Crater of 17 km a degree from the pole. -/
noncomputable def toyX : RawCrater := ⟨"X", -89, 0, some (-89, 0), 17, 2.5, 0.5, 0.5⟩

/-- The files of the small run. -/
noncomputable def toyData : RunData :=
  { craters := [toyA, toyB, toyX], basins := [], hop := [], lum := [], nk := [],
    melt := ⟨[140], [(0, [0]), (200, [1])]⟩, sortAges := sortDesc, sortNk := id, setOrder := id }

theorem toy_physical (ns : List String) : PhysicalCfg (toyTraps ns) := by
  have h := default_physical 0
  exact { h with hw := le_rfl, ts := by simp only [toyTraps]; norm_num }

theorem toy_melt (m t v : ℝ) (h : toyData.melt.at m t = some v) : 0 ≤ v ∧ v ≤ 1 := by
  unfold MeltTable.at toyData at h
  simp only [List.find?_cons, List.find?_nil] at h
  by_cases h0 : (0 : ℝ) = m
  · rw [decide_eq_true h0] at h
    by_cases h1 : (140 : ℝ) = t
    · simp only [List.zip_cons_cons, List.find?_cons, decide_eq_true h1] at h
      cases h
      exact ⟨le_rfl, zero_le_one⟩
    · simp [h1] at h
  · rw [decide_eq_false h0] at h
    by_cases h2 : (200 : ℝ) = m
    · rw [decide_eq_true h2] at h
      by_cases h1 : (140 : ℝ) = t
      · simp only [List.zip_cons_cons, List.find?_cons, decide_eq_true h1] at h
        cases h
        exact ⟨zero_le_one, le_rfl⟩
      · simp [h1] at h
    · rw [decide_eq_false h2] at h
      cases h

theorem toy_data (ns : List String) : PhysicalData (toyTraps ns) toyData where
  solar h := by cases h
  volc := by
    refine ⟨rfl, ?_⟩
    simp only [toyTraps, RunCfg.default]
    norm_num
  hops h := by cases h
  basins r hr := by cases hr
  melt m t v h := toy_melt m t v h
  lost := by simp only [toyTraps, RunCfg.default]; norm_num
  sorted := sortDesc_spec

theorem toy_runnable (ns : List String) (h1 : ns ≠ []) (h2 : ns.Nodup)
    (h3 : ∀ n ∈ ns, n = "A" ∨ n = "B") : Runnable (toyTraps ns) toyData where
  names := h1
  nodup := h2
  start := by simp only [toyTraps]; norm_num
  span := by simp only [toyTraps, RunCfg.default]; norm_num
  bars r hr := by
    simp only [toyData, List.append_nil, List.mem_cons, List.not_mem_nil, or_false] at hr
    rcases hr with rfl | rfl | rfl <;> simp only [toyA, toyB, toyX] <;> norm_num
  diam r hr := by
    simp only [toyData, List.append_nil, List.mem_cons, List.not_mem_nil, or_false] at hr
    rcases hr with rfl | rfl | rfl <;> simp only [toyA, toyB, toyX] <;> norm_num
  once n hn := by
    rcases h3 n hn with rfl | rfl <;> simp [toyData, toyA, toyB, toyX]
  old r hr hn := by
    simp only [toyData, List.append_nil, List.mem_cons, List.not_mem_nil, or_false] at hr
    rcases hr with rfl | rfl | rfl <;> simp only [toyTraps, toyA, toyB, toyX] <;> norm_num
  s2c := by simp only [toyTraps, RunCfg.default]; norm_num
  c2pr := by simp only [toyTraps, RunCfg.default]; norm_num
  angle90 := by simp only [toyTraps, RunCfg.default]; norm_num
  peak r hr hp := by
    exfalso
    simp only [toyData, List.append_nil, List.mem_cons, List.not_mem_nil, or_false] at hr
    rcases hr with rfl | rfl | rfl <;> simp only [toyTraps, RunCfg.default, toyA, toyB, toyX] at hp <;>
      norm_num at hp
  covers _ := by
    refine ⟨?_, by simp [toyData], by simp [toyData], ?_⟩
    · intro m hm t ht
      simp only [toyData, List.map_cons, List.map_nil, List.mem_cons, List.not_mem_nil, or_false] at hm ht
      subst ht
      rcases hm with rfl | rfl
      · exact ⟨0, by simp [MeltTable.at, toyData]⟩
      · exact ⟨1, by simp [MeltTable.at, toyData]⟩
    · intro dist m hd1 hd2 hm b t ht
      have hp := pi_pos
      have hm' : m = dist * 180 / (π * 1737400) := by
        simp only [toyTraps, mixingRatio, Real.rpow_one] at hm
        simp at hm
        rw [← hm]
        field_simp
        norm_num
      have ht' : t = 140 := by
        cases ht with
        | crater => rfl
        | warm h => cases h
        | cold => rfl
      refine ⟨0, 200, 140, 140, ⟨by simp [toyData], by simp [toyData], by simp [toyData],
        by simp [toyData], ?_, ?_, ht'.ge, ht'.le⟩⟩
      · rw [hm']; positivity
      · rw [hm', div_le_iff₀ (by positivity)]; nlinarith

theorem toy_time (ns : List String) : getTimeArray (toyTraps ns).timestart (toyTraps ns).timeend
    (toyTraps ns).timestep = .ok [3e9, 2e9, 1e9] := by
  have h : pyInt (((3e9 : ℝ) - 0) / 1e9) = 3 := by
    rw [show ((3e9 : ℝ) - 0) / 1e9 = ((3 : ℤ) : ℝ) by norm_num]
    simp [pyInt]
  change getTimeArray (3e9 : ℝ) 0 1e9 = _
  unfold getTimeArray
  rw [if_neg (by norm_num), h]
  simp [linspace, List.range_succ]
  norm_num

/-- A row with its age in the run. -/
noncomputable def toyRow (r : RawCrater) (age : ℝ) : CraterAge ℝ CraterCols :=
  { readRow false "no" r with age := age }

theorem toy_df (ns : List String) : craterBasinList constGen (toyTraps ns) toyData
    (constGen.init (toyTraps ns).seed) =
      .ok ([toyRow toyA 4e9, toyRow toyB 3e9, toyRow toyX 2e9], ()) := by
  have hr : ∀ (x : ℝ) (n : ℤ), x = n * 1e9 → roundToTs x 1e9 = n * 1e9 := by
    intro x n h
    unfold roundToTs
    rw [h, mul_div_cancel_right₀ _ (by norm_num)]
    simp [roundHalfEven]
  have hnew : ∀ (r : RawCrater) (n : ℤ), r.age_low = 0.5 → r.age_upp = 0.5 → r.age - 0.5 = n →
      newAge 1e9 (truncA (readRow false "no" r)) (readRow false "no" r) =
        .ok (toyRow r (n * 1e9)) := by
    intro r n h1 h2 h3
    have hs : sigOf (readRow false "no" r) = 0.25e9 := by
      simp only [sigOf, readRow, h1, h2]; norm_num
    unfold newAge
    rw [if_neg (by rw [hs]; norm_num), if_pos (by
      simp only [truncA, truncB, hs]
      simp only [readRow, h1, h2]; norm_num)]
    have : (readRow false "no" r).age + sigOf (readRow false "no" r) * truncA (readRow false "no" r) =
        n * 1e9 := by
      rw [← h3]
      simp only [truncA, hs]
      simp only [readRow, h1]; ring
    rw [hr _ n this]
    rfl
  have e : newAges (1e9 : ℝ) (fun i => ((([toyA, toyB, toyX].map (readRow false "no")).map
      (fun r => (truncA r, truncB r))).map (·.1)).getD i 0) 0 ([toyA, toyB, toyX].map (readRow false "no"))
      = .ok [toyRow toyA 4e9, toyRow toyB 3e9, toyRow toyX 2e9] := by
    have hA := hnew toyA 4 rfl rfl (by simp only [toyA]; norm_num)
    have hB := hnew toyB 3 rfl rfl (by simp only [toyB]; norm_num)
    have hX := hnew toyX 2 rfl rfl (by simp only [toyX]; norm_num)
    simp only [List.map_cons, List.map_nil, newAges, List.getD_cons_zero, List.getD_cons_succ, hA, hB, hX,
      bind, Except.bind]
    norm_num
  have hsort : sortDesc [toyRow toyA 4e9, toyRow toyB 3e9, toyRow toyX 2e9] =
      [toyRow toyA 4e9, toyRow toyB 3e9, toyRow toyX 2e9] := by
    apply List.mergeSort_of_pairwise
    simp only [toyRow, List.pairwise_cons, List.mem_cons, List.not_mem_nil, or_false, decide_eq_true_eq]
    refine ⟨?_, ?_, by simp⟩
    · rintro a (rfl | rfl) <;> norm_num
    · rintro a rfl; norm_num
  change (randomizeAges sortDesc (1e9 : ℝ) (fun i => ((([toyA, toyB, toyX].map (readRow false "no")).map
      (fun r => (truncA r, truncB r))).map (·.1)).getD i 0) ([toyA, toyB, toyX].map (readRow false "no"))).bind
      (fun df => .ok (df, ())) = _
  unfold randomizeAges
  rw [e]
  change Except.ok (sortDesc _, ()) = _
  rw [hsort]

/-- Distances along a meridian. -/
theorem gcDist_meridian (lat₁ lat₂ : ℝ) (h : |lat₂ - lat₁| ≤ 90) :
    gcDist 0 lat₁ 0 lat₂ 1737.4e3 = some (1737400 * (|lat₂ - lat₁| * π / 180)) := by
  have hp := pi_pos
  obtain ⟨x, hx⟩ : ∃ x, x = |lat₂ - lat₁| * π / 180 := ⟨_, rfl⟩
  have hx0 : 0 ≤ x := by rw [hx]; positivity
  have hx1 : x ≤ π / 2 := by rw [hx]; nlinarith
  have hhav : haversine 0 lat₁ 0 lat₂ = Real.sin (x / 2) ^ 2 := by
    simp only [haversine, deg2rad, zero_mul, sub_self, zero_div, Real.sin_zero]
    have : Real.sin ((lat₂ * (π / 180) - lat₁ * (π / 180)) / 2) ^ 2 = Real.sin (x / 2) ^ 2 := by
      rw [hx]
      rcases abs_cases (lat₂ - lat₁) with ⟨e, -⟩ | ⟨e, -⟩
      · rw [e]; congr 2; ring
      · rw [e, show -(lat₂ - lat₁) * π / 180 / 2 = -((lat₂ * (π / 180) - lat₁ * (π / 180)) / 2) by ring,
          Real.sin_neg, neg_sq]
    rw [this]; ring
  have hs : 0 ≤ Real.sin (x / 2) := Real.sin_nonneg_of_nonneg_of_le_pi (by linarith) (by linarith)
  have hc : 0 ≤ Real.cos (x / 2) := Real.cos_nonneg_of_mem_Icc ⟨by linarith, by linarith⟩
  have hone : 1 - Real.sin (x / 2) ^ 2 = Real.cos (x / 2) ^ 2 := by
    rw [← Real.sin_sq_add_cos_sq (x / 2)]; ring
  unfold gcDist
  simp only [hhav, hone, npSqrt, if_neg (not_lt.2 (sq_nonneg _)), Real.sqrt_sq hs, Real.sqrt_sq hc]
  have harg : arctan2 (Real.sin (x / 2)) (Real.cos (x / 2)) = x / 2 := by
    unfold arctan2
    have := Complex.arg_cos_add_sin_mul_I (θ := x / 2) ⟨by linarith, by linarith⟩
    refine Eq.trans (congrArg Complex.arg ?_) this
    rw [← Complex.ofReal_cos, ← Complex.ofReal_sin]
    apply Complex.ext <;> simp only [Complex.add_re, Complex.add_im, Complex.ofReal_re, Complex.ofReal_im,
      Complex.mul_re, Complex.mul_im, Complex.I_re, Complex.I_im] <;> ring
  rw [harg, hx]
  congr 1
  ring

/-- The craters of the run, oldest first. -/
noncomputable def toyCraters : List Crater :=
  [toyRow toyA 4e9, toyRow toyB 3e9, toyRow toyX 2e9].map (·.rest.crater)

theorem coldtrapDist_of {cfg : EjCfg} {df : List Crater} {row t : Crater} {trap : String} {p : ℝ × ℝ}
    {d : ℝ} (hn : row.cname ≠ trap) (hb : row.isbasin = false)
    (ht : df.filter (fun c => c.cname = trap) = [t])
    (hp : t.psr = some p) (hg : gcDist row.lon row.lat p.2 p.1 1737.4e3 = some d) (h0 : 0 < d) :
    (¬ inBlanket row.rad cfg.ej_threshold d → coldtrapDist cfg df row trap = .ok none) ∧
      (inBlanket row.rad cfg.ej_threshold d → coldtrapDist cfg df row trap = .ok (some d)) := by
  have hthr : (if row.isbasin = true then cfg.basin_ej_threshold else cfg.ej_threshold) =
      cfg.ej_threshold := by rw [hb]; rfl
  unfold coldtrapDist
  simp only [ht, hp, hg, if_neg hn]
  constructor
  · intro h
    rw [← hthr] at h
    rw [if_neg h, if_pos le_rfl]
  · intro h
    rw [← hthr] at h
    rw [if_pos h, if_neg (not_le.2 h0)]

theorem toy_dist_none (ns : List String) (r : RawCrater) (hlon : r.lon = 0) (hd : r.diam = 1) (trap : String)
    (hn : r.cname ≠ trap)
    (t : RawCrater) (ht : toyCraters.filter (fun c => c.cname = trap) = [(readRow false "no" t).rest.crater])
    (p : ℝ) (hp : t.psr = some (p, 0)) (h1 : 1 / 2 ≤ |p - r.lat|) (h2 : |p - r.lat| ≤ 90) :
    coldtrapDist (toyTraps ns).ej toyCraters (readRow false "no" r).rest.crater trap = .ok none := by
  have hpi := pi_gt_three
  have hg : gcDist r.lon r.lat 0 p 1737.4e3 = some (1737400 * (|p - r.lat| * π / 180)) := by
    rw [hlon]; exact gcDist_meridian _ _ h2
  have hg' : gcDist (readRow false "no" r).rest.crater.lon (readRow false "no" r).rest.crater.lat
      (p, (0 : ℝ)).2 (p, (0 : ℝ)).1 1737.4e3 = some (1737400 * (|p - r.lat| * π / 180)) := hg
  have hp' : (readRow false "no" t).rest.crater.psr = some (p, 0) := hp
  have hn' : (readRow false "no" r).rest.crater.cname ≠ trap := hn
  have hb' : (readRow false "no" r).rest.crater.isbasin = false := rfl
  refine (coldtrapDist_of hn' hb' ht hp' hg' ?_).1 ?_
  · have : 0 < |p - r.lat| := by linarith
    positivity
  · rintro ⟨-, h⟩
    have e : (readRow false "no" r).rest.crater.rad = 500 := by simp only [readRow, hd]; norm_num
    rw [e, show (toyTraps ns).ej.ej_threshold = 4 from rfl, if_neg (by norm_num)] at h
    nlinarith

theorem toy_dist_X (ns : List String) (trap : String) (hne : "X" ≠ trap)
    (t : RawCrater) (ht : toyCraters.filter (fun c => c.cname = trap) = [(readRow false "no" t).rest.crater])
    (p : ℝ) (hp : t.psr = some (p, 0)) (x : ℝ) (hx : |p - -89| = x) (h1 : 1 / 2 ≤ x) (h2 : x ≤ 1) :
    coldtrapDist (toyTraps ns).ej toyCraters (readRow false "no" toyX).rest.crater trap =
      .ok (some (1737400 * (x * π / 180))) := by
  have hpi := pi_gt_three
  have hpi4 := pi_lt_d2
  have hg : gcDist toyX.lon toyX.lat 0 p 1737.4e3 = some (1737400 * (x * π / 180)) := by
    have := gcDist_meridian (-89) p (by rw [hx]; linarith)
    rw [hx] at this
    exact this
  have hg' : gcDist (readRow false "no" toyX).rest.crater.lon (readRow false "no" toyX).rest.crater.lat
      (p, (0 : ℝ)).2 (p, (0 : ℝ)).1 1737.4e3 = some (1737400 * (x * π / 180)) := hg
  have hp' : (readRow false "no" t).rest.crater.psr = some (p, 0) := hp
  have hn' : (readRow false "no" toyX).rest.crater.cname ≠ trap := hne
  have hb' : (readRow false "no" toyX).rest.crater.isbasin = false := rfl
  refine (coldtrapDist_of hn' hb' ht hp' hg' ?_).2 ?_
  · have : 0 < x := by linarith
    positivity
  · have e : (readRow false "no" toyX).rest.crater.rad = 8500 := by simp only [readRow, toyX]; norm_num
    rw [e, show (toyTraps ns).ej.ej_threshold = 4 from rfl]
    refine ⟨by nlinarith, ?_⟩
    rw [if_neg (by norm_num)]
    nlinarith

theorem toy_filter_A : toyCraters.filter (fun c => c.cname = "A") = [(readRow false "no" toyA).rest.crater] := by
  simp [toyCraters, toyRow, readRow, toyA, toyB, toyX]

theorem toy_filter_B : toyCraters.filter (fun c => c.cname = "B") = [(readRow false "no" toyB).rest.crater] := by
  simp [toyCraters, toyRow, readRow, toyA, toyB, toyX]

theorem toy_self (ns : List String) (r : RawCrater) :
    coldtrapDist (toyTraps ns).ej toyCraters (readRow false "no" r).rest.crater r.cname = .ok none := by
  unfold coldtrapDist
  exact if_pos rfl

/-- Metres in `x` degrees. -/
noncomputable def toyDeg (x : ℝ) : ℝ := 1737400 * (x * π / 180)

theorem toy_dists_A : coldtrapDists (toyTraps ["A"]).ej toyCraters ["A"] =
    .ok [[none], [none], [some (toyDeg 1)]] := by
  have h1 := toy_self ["A"] toyA
  have h2 := toy_dist_none ["A"] toyB rfl rfl "A" (by simp [toyB]) toyA toy_filter_A (-90) rfl
    (by simp only [toyB]; norm_num) (by simp only [toyB]; norm_num)
  have h3 := toy_dist_X ["A"] "A" (by decide) toyA toy_filter_A (-90) rfl 1 (by norm_num) (by norm_num) (by norm_num)
  unfold coldtrapDists
  simp only [show toyCraters = [(readRow false "no" toyA).rest.crater, (readRow false "no" toyB).rest.crater,
    (readRow false "no" toyX).rest.crater] from rfl] at h1 h2 h3 ⊢
  change coldtrapDist _ _ _ "A" = _ at h1
  simp only [List.mapM_cons, List.mapM_nil, h1, h2, h3, bind, Except.bind, pure, Except.pure]
  rfl

theorem toy_dists_AB : coldtrapDists (toyTraps ["A", "B"]).ej toyCraters ["A", "B"] =
    .ok [[none, none], [none, none], [some (toyDeg 1), some (toyDeg (1 / 2))]] := by
  have h1 := toy_self ["A", "B"] toyA
  have h2 := toy_dist_none ["A", "B"] toyB rfl rfl "A" (by simp [toyB]) toyA toy_filter_A (-90) rfl
    (by simp only [toyB]; norm_num) (by simp only [toyB]; norm_num)
  have h3 := toy_dist_X ["A", "B"] "A" (by decide) toyA toy_filter_A (-90) rfl 1 (by norm_num) (by norm_num) (by norm_num)
  have h4 := toy_dist_none ["A", "B"] toyA rfl rfl "B" (by simp [toyA]) toyB toy_filter_B (-88.5) rfl
    (by simp only [toyA]; norm_num) (by simp only [toyA]; norm_num)
  have h5 := toy_self ["A", "B"] toyB
  have h6 := toy_dist_X ["A", "B"] "B" (by decide) toyB toy_filter_B (-88.5) rfl (1 / 2) (by norm_num) (by norm_num) (by norm_num)
  unfold coldtrapDists
  simp only [show toyCraters = [(readRow false "no" toyA).rest.crater, (readRow false "no" toyB).rest.crater,
    (readRow false "no" toyX).rest.crater] from rfl] at h1 h2 h3 h4 h5 h6 ⊢
  change coldtrapDist _ _ _ "A" = _ at h1
  change coldtrapDist _ _ _ "B" = _ at h5
  simp only [List.mapM_cons, List.mapM_nil, h1, h2, h3, h4, h5, h6, bind, Except.bind, pure, Except.pure]
  rfl

theorem toy_ratio (ns : List String) (x : ℝ) : mixingRatio (toyTraps ns).mixing_ratio_petro
    (toyTraps ns).mixing_ratio_a (toyTraps ns).mixing_ratio_b (some (toyDeg x)) = some x := by
  have hp := pi_pos
  change some ((180000 / (π * 1737400)) * (toyDeg x * 1e-3) ^ (1 : ℝ)) = _
  rw [Real.rpow_one, toyDeg]
  congr 1
  field_simp
  norm_num
  ring

theorem toy_melt_A : getMeltFrac toyData.melt [[(140, none), (140, none), (140, some 1)]] =
    .ok [[some 0, some 0, some (1 / 2)]] := by
  have h1 : insertUniqueInRange [some (140 : ℝ), some 140, some 140] [140] = .ok [140] := by
    norm_num [insertUniqueInRange, sortUnique, insertU, List.filterMap_cons, List.filter_cons]
  have h2 : insertUniqueInRange [none, none, some (1 : ℝ)] [0, 200] = .ok [0, 1, 200] := by
    norm_num [insertUniqueInRange, sortUnique, insertU, List.filterMap_cons, List.filter_cons]
  have h3 : meltInterp toyData.melt [0, 1, 200] [140] = [[some 0], [some (1 / 2)], [some 1]] := by
    norm_num [meltInterp, toyData, MeltTable.at, posInterp, prevKnown, nextKnown, knownAt, List.range_succ,
      List.range', List.findSome?]
  unfold getMeltFrac
  change ((insertUniqueInRange [some (140 : ℝ), some 140, some 140] [140]).bind fun temps =>
    (insertUniqueInRange [none, none, some (1 : ℝ)] [0, 200]).bind fun mrs => _) = _
  rw [h1, h2]
  simp only [Except.bind, h3]
  have i1 : List.idxOf (1 : ℝ) [0, 1, 200] = 1 := by
    rw [List.idxOf_cons_ne _ (by norm_num), List.idxOf_cons_self]
  simp [meltLoc, i1, bind, Except.bind, pure, Except.pure]

theorem toy_melt_AB : getMeltFrac toyData.melt [[(140, none), (140, none), (140, some 1)],
      [(140, none), (140, none), (140, some (1 / 2))]] =
    .ok [[some 0, some 0, some (2 / 3)], [some 0, some 0, some (1 / 3)]] := by
  have h1 : insertUniqueInRange [some (140 : ℝ), some 140, some 140, some 140, some 140, some 140] [140] =
      .ok [140] := by
    norm_num [insertUniqueInRange, sortUnique, insertU, List.filterMap_cons, List.filter_cons]
  have h2 : insertUniqueInRange [none, none, some (1 : ℝ), none, none, some (1 / 2)] [0, 200] =
      .ok [0, 1 / 2, 1, 200] := by
    norm_num [insertUniqueInRange, sortUnique, insertU, List.filterMap_cons, List.filter_cons]
  have h3 : meltInterp toyData.melt [0, 1 / 2, 1, 200] [140] =
      [[some 0], [some (1 / 3)], [some (2 / 3)], [some 1]] := by
    norm_num [meltInterp, toyData, MeltTable.at, posInterp, prevKnown, nextKnown, knownAt, List.range_succ,
      List.range', List.findSome?]
  unfold getMeltFrac
  change ((insertUniqueInRange [some (140 : ℝ), some 140, some 140, some 140, some 140, some 140] [140]).bind fun temps =>
    (insertUniqueInRange [none, none, some (1 : ℝ), none, none, some (1 / 2)] [0, 200]).bind fun mrs => _) = _
  rw [h1, h2]
  simp only [Except.bind, h3]
  have i1 : List.idxOf (1 : ℝ) [0, 1 / 2, 1, 200] = 2 := by
    rw [List.idxOf_cons_ne _ (by norm_num), List.idxOf_cons_ne _ (by norm_num), List.idxOf_cons_self]
  have i2 : List.idxOf (1 / 2 : ℝ) [0, 1 / 2, 1, 200] = 1 := by
    rw [List.idxOf_cons_ne _ (by norm_num), List.idxOf_cons_self]
  simp only [List.mapM_cons, List.mapM_nil, meltLoc, i1, i2, bind, Except.bind, pure, Except.pure]
  simp

/-- Thickness of the ejecta of `X` at `x` degrees. -/
noncomputable def toyThick (x : ℝ) : ℝ := 0.04 * 8500 * (toyDeg x / 8500) ^ (-3 : ℝ)

theorem toy_thick (ns : List String) (x : ℝ) (hx : 0 < x) :
    finiteOf (ejThickness (toyTraps ns).ej (some (toyDeg x)) 8500) = .ok (toyThick x) := by
  have hp := pi_pos
  have hd : 0 < toyDeg x := by unfold toyDeg; positivity
  have e : ejThickSimple (toyDeg x) 8500 (-3) = .fin (toyThick x) := by
    unfold ejThickSimple npPow
    rw [if_neg (by norm_num), if_neg (by rw [not_lt]; positivity), if_neg (by
      rintro ⟨h, -⟩
      exact absurd h (by positivity))]
    rfl
  unfold ejThickness
  simp only []
  rw [if_neg (show ¬ (toyTraps ns).ej.complex2peakring / 2 ≤ 8500 by
      rw [show (toyTraps ns).ej.complex2peakring = 1.4e5 from rfl]; norm_num),
    if_neg (show ¬ ((toyTraps ns).ej.simple2complex / 2 < 8500 ∧ _) by
      rw [show (toyTraps ns).ej.simple2complex = 18e3 from rfl]; norm_num),
    if_pos (show 8500 < (toyTraps ns).ej.simple2complex / 2 by
      rw [show (toyTraps ns).ej.simple2complex = 18e3 from rfl]; norm_num),
    show (toyTraps ns).ej.ej_thickness_exp = -3 from rfl, e]
  rfl

theorem toy_thick_lower : 5 ≤ toyThick 1 := by
  have hp := pi_pos
  have hp4 := pi_lt_d2
  have h0 : 0 < toyDeg 1 / 8500 := by unfold toyDeg; positivity
  have h1 : toyDeg 1 / 8500 ≤ 4 := by unfold toyDeg; rw [div_le_iff₀ (by norm_num)]; nlinarith
  have h2 := Real.rpow_le_rpow_of_nonpos h0 h1 (show (-3 : ℝ) ≤ 0 by norm_num)
  have h3 : (4 : ℝ) ^ (-3 : ℝ) = 1 / 64 := by
    rw [Real.rpow_neg (by norm_num), show (3 : ℝ) = ((3 : ℕ) : ℝ) by norm_num, Real.rpow_natCast]; norm_num
  unfold toyThick
  rw [h3] at h2
  linarith

/-- The crater table of the run. -/
noncomputable def toyTable : CraterTable := [toyRow toyA 4e9, toyRow toyB 3e9, toyRow toyX 2e9]

theorem toy_ages {A V : Type} (v0 v1 v2 : V) (agg : A → V → A) (fill : A) :
    ages2time RunCfg.rtol [3e9, 2e9, 1e9] [((4e9 : ℝ), v0), (3e9, v1), (2e9, v2)] agg fill =
      .ok [agg fill v1, agg fill v2, fill] := by
  have hm : minmaxRtol RunCfg.rtol [(3e9 : ℝ), 2e9, 1e9] = .ok (1e9 - 1e3, 3e9 + 3e3) := by
    unfold minmaxRtol rtolOf RunCfg.rtol
    norm_num
  unfold ages2time
  rw [hm]
  have hf : [((4e9 : ℝ), v0), (3e9, v1), (2e9, v2)].filter (fun p => decide (p.1 ≥ 1e9 - 1e3) &&
      decide (p.1 ≤ 3e9 + 3e3)) = [(3e9, v1), (2e9, v2)] := by
    norm_num [List.filter_cons]
  have hi : timeIdx [(3e9 : ℝ), 2e9, 1e9] [(3e9, v1), (2e9, v2)] = .ok [(0, v1), (1, v2)] := by
    norm_num [timeIdx, argmin, argminFrom, bind, Except.bind]
  simp only [bind, Except.bind, hf, hi]
  rfl

theorem toy_thickness_A : thicknessMatrix (toyTraps ["A"]) toyTable
    [[none], [none], [some (toyDeg 1)]] = .ok [[0], [0], [toyThick 1]] := by
  have h := toy_thick ["A"] 1 one_pos
  have h0 : ∀ (c : EjCfg) (r : ℝ), finiteOf (ejThickness c none r) = .ok 0 := fun _ _ => rfl
  have e : (toyRow toyX 2e9).rest.crater.rad = 8500 := by simp only [toyRow, readRow, toyX]; norm_num
  unfold thicknessMatrix toyTable
  simp only [List.zip_cons_cons, List.zip_nil_right, List.mapM_cons, List.mapM_nil, e, h, h0,
    bind, Except.bind, pure, Except.pure]

theorem toy_thickness_AB : thicknessMatrix (toyTraps ["A", "B"]) toyTable
    [[none, none], [none, none], [some (toyDeg 1), some (toyDeg (1 / 2))]] =
      .ok [[0, 0], [0, 0], [toyThick 1, toyThick (1 / 2)]] := by
  have h := toy_thick ["A", "B"] 1 one_pos
  have h' := toy_thick ["A", "B"] (1 / 2) (by norm_num)
  have h0 : ∀ (c : EjCfg) (r : ℝ), finiteOf (ejThickness c none r) = .ok 0 := fun _ _ => rfl
  have e : (toyRow toyX 2e9).rest.crater.rad = 8500 := by simp only [toyRow, readRow, toyX]; norm_num
  unfold thicknessMatrix toyTable
  simp only [List.zip_cons_cons, List.zip_nil_right, List.mapM_cons, List.mapM_nil, e, h, h', h0,
    bind, Except.bind, pure, Except.pure]

theorem toy_column (ns : List String) (w m x : ℝ) (hm : 0 ≤ m) (hx : 0 ≤ x) :
    bsedColumn (toyTraps ns).bsed [3e9, 2e9, 1e9] (toyTable.map (·.age)) [0, 0, w]
      [none, none, some x] [some 0, some 0, some m] = .ok ([0, w * x, 0], [0, m, 0]) := by
  unfold bsedColumn
  change ((ages2time RunCfg.rtol [3e9, 2e9, 1e9] [((4e9 : ℝ), some (0 : ℝ)), (3e9, some 0), (2e9, some w)] nansum 0).bind
    fun thickT => (ages2time RunCfg.rtol [3e9, 2e9, 1e9] [((4e9 : ℝ), none), (3e9, none), (2e9, some x)] nanmax 0).bind
    fun ratioT => (ages2time RunCfg.rtol [3e9, 2e9, 1e9] [((4e9 : ℝ), some (0 : ℝ)), (3e9, some 0), (2e9, some m)] nanmax 0).bind
    fun meltT => .ok (List.zipWith (· * ·) thickT ratioT, meltT.map fun m => m * 1)) = _
  rw [toy_ages, toy_ages, toy_ages]
  simp [Except.bind, nansum, nanmax, hm, hx]

theorem bsedDepth_on {cfg : BsedCfg ℝ} (h : cfg.ballistic_sed = true) (tbl : MeltTable ℝ)
    (mr : Option ℝ → Option ℝ) (time ages : List ℝ) (isbasin : List Bool)
    (traps : List (List (Option ℝ) × List ℝ)) (melts : List (List (Option ℝ)))
    (hm : getMeltFrac tbl (traps.map (fun tr => (ejectaTemp cfg isbasin).zip (tr.1.map mr))) = .ok melts) :
    bsedDepth cfg tbl mr time ages isbasin traps =
      (traps.zip melts).mapM (fun p => bsedColumn cfg time ages p.1.2 (p.1.1.map mr) p.2) := by
  unfold bsedDepth
  rw [if_neg (by simp [h])]
  simp only [bind, Except.bind, hm]

theorem toy_bsed_A : bsedArrays (toyTraps ["A"]) toyData [3e9, 2e9, 1e9] toyTable
    [[none], [none], [some (toyDeg 1)]] [[0], [0], [toyThick 1]] =
      .ok ([[0], [toyThick 1 * 1], [0]], [[0], [1 / 2], [0]]) := by
  have hc := toy_column ["A"] (toyThick 1) (1 / 2) 1 (by norm_num) (by norm_num)
  obtain ⟨mr, hmr⟩ : ∃ f, f = mixingRatio (toyTraps ["A"]).mixing_ratio_petro
    (toyTraps ["A"]).mixing_ratio_a (toyTraps ["A"]).mixing_ratio_b := ⟨_, rfl⟩
  have hq : [none, none, some (toyDeg 1)].map mr = [none, none, some 1] := by
    rw [hmr, List.map_cons, List.map_cons, List.map_cons, toy_ratio]; rfl
  have hm := bsedDepth_on (cfg := (toyTraps ["A"]).bsed) rfl toyData.melt mr [3e9, 2e9, 1e9]
    (toyTable.map (·.age)) (toyTable.map (·.rest.crater.isbasin))
    [([none, none, some (toyDeg 1)], [0, 0, toyThick 1])] _ (by
      rw [List.map_cons, hq]; exact toy_melt_A)
  simp only [List.zip_cons_cons, List.zip_nil_right, List.mapM_cons, List.mapM_nil, hq, hc, bind,
    Except.bind, pure, Except.pure] at hm
  unfold bsedArrays
  rw [← hmr]
  change (bsedDepth (toyTraps ["A"]).bsed toyData.melt mr [3e9, 2e9, 1e9] (toyTable.map (·.age))
    (toyTable.map (·.rest.crater.isbasin)) [([none, none, some (toyDeg 1)], [0, 0, toyThick 1])]).bind _ = _
  rw [hm]
  rfl

theorem toy_bsed_AB : ∃ bd bf, bsedArrays (toyTraps ["A", "B"]) toyData [3e9, 2e9, 1e9] toyTable
    [[none, none], [none, none], [some (toyDeg 1), some (toyDeg (1 / 2))]]
    [[0, 0], [0, 0], [toyThick 1, toyThick (1 / 2)]] = .ok (bd, bf) ∧
      colOf 0 bf = [[0], [2 / 3], [0]] := by
  have hc := toy_column ["A", "B"] (toyThick 1) (2 / 3) 1 (by norm_num) (by norm_num)
  have hc' := toy_column ["A", "B"] (toyThick (1 / 2)) (1 / 3) (1 / 2) (by norm_num) (by norm_num)
  obtain ⟨mr, hmr⟩ : ∃ f, f = mixingRatio (toyTraps ["A", "B"]).mixing_ratio_petro
    (toyTraps ["A", "B"]).mixing_ratio_a (toyTraps ["A", "B"]).mixing_ratio_b := ⟨_, rfl⟩
  have hq : [none, none, some (toyDeg 1)].map mr = [none, none, some 1] := by
    rw [hmr, List.map_cons, List.map_cons, List.map_cons, toy_ratio]; rfl
  have hq' : [none, none, some (toyDeg (1 / 2))].map mr = [none, none, some (1 / 2)] := by
    rw [hmr, List.map_cons, List.map_cons, List.map_cons, toy_ratio]; rfl
  have hm := bsedDepth_on (cfg := (toyTraps ["A", "B"]).bsed) rfl toyData.melt mr [3e9, 2e9, 1e9]
    (toyTable.map (·.age)) (toyTable.map (·.rest.crater.isbasin))
    [([none, none, some (toyDeg 1)], [0, 0, toyThick 1]),
      ([none, none, some (toyDeg (1 / 2))], [0, 0, toyThick (1 / 2)])] _ (by
      rw [List.map_cons, hq, List.map_cons, hq']; exact toy_melt_AB)
  simp only [List.zip_cons_cons, List.zip_nil_right, List.mapM_cons, List.mapM_nil, hq, hq', hc, hc', bind,
    Except.bind, pure, Except.pure] at hm
  unfold bsedArrays
  rw [← hmr]
  refine ⟨[[0, 0], [toyThick 1 * 1, toyThick (1 / 2) * (1 / 2)], [0, 0]], [[0, 0], [2 / 3, 1 / 3], [0, 0]], ?_, rfl⟩
  change (bsedDepth (toyTraps ["A", "B"]).bsed toyData.melt mr [3e9, 2e9, 1e9] (toyTable.map (·.age))
    (toyTable.map (·.rest.crater.isbasin)) [([none, none, some (toyDeg 1)], [0, 0, toyThick 1]),
    ([none, none, some (toyDeg (1 / 2))], [0, 0, toyThick (1 / 2)])]).bind _ = _
  rw [hm]
  rfl

/-- The ice delivered to the first layer. -/
noncomputable def toyIce : ℝ := 0.26 / 934 / (1.3e4 * 1e6) * (1e7 * 1e9 * 1e-9 * 3000 * 10 * (1 / 1000000) * 0.25 * 1e9)

theorem toy_col (st : Setup Unit) (h : setup constGen (toyTraps ["A"]) toyData = .ok st) :
    ∃ col x1 x2 w, st.cols.get "A" = .ok col ∧ col.ice = [toyIce, x1, x2] ∧ col.ej = [0, w, 0] := by
  obtain ⟨s1, s2, dists, thick, h1, h2, h3, h4, h5, h6, h7⟩ := setup_inv _ _ _ st h
  have e1 := h1.symm.trans (toy_time ["A"])
  injection e1 with e1
  have e2 := h2.symm.trans (toy_df ["A"])
  injection e2 with e2
  injection e2 with e2 _
  rw [e2] at h3
  have e3 := h3.symm.trans toy_dists_A
  injection e3 with e3
  rw [e2, e3] at h4
  have e4 := h4.symm.trans toy_thickness_A
  injection e4 with e4
  rw [e1, e2, e4] at h5
  obtain ⟨ej, ice, k1, k2, k3⟩ := initStratCols_inv _ _ _ _ _ _ _ _ _ h5
  -- ejecta
  have hej : ∃ src, ej = [([0, toyThick 1, 0], src)] := by
    have hrows : ejRows [toyRow toyA 4e9, toyRow toyB 3e9, toyRow toyX 2e9] (column [[0], [0], [toyThick 1]] 0) =
        [⟨"A", 4e9, 0⟩, ⟨"B", 3e9, 0⟩, ⟨"X", 2e9, toyThick 1⟩] := rfl
    have ht := toy_ages (some (0 : ℝ)) (some 0) (some (toyThick 1)) nansum 0
    have hs := fun a b c : String => toy_ages a b c (fun acc s => acc ++ s) ""
    change (([0] : List ℕ).map id).mapM _ = _ at k1
    simp only [List.map_cons, List.map_nil, List.mapM_cons, List.mapM_nil, id, hrows, ejectaThicknessTime, ht, hs,
      bind, Except.bind, pure, Except.pure] at k1
    injection k1 with k1
    rw [← k1]
    simp [nansum]
  -- ice
  have hice : ∃ x1 x2, column ice 0 = [toyIce, x1, x2] := by
    unfold iceCols at k2
    obtain ⟨⟨polar, s3⟩, p1, k2⟩ := bind_ok_inv k2
    obtain ⟨volc, p2, k2⟩ := bind_ok_inv k2
    obtain ⟨rows, p3, k2⟩ := bind_ok_inv k2
    injection k2 with k2
    injection k2 with k2 _
    subst k2
    obtain ⟨pv, b, q1, -, q3⟩ := iceColsTime_col p3 (j := 0) (name := "A") rfl
    rw [q3]
    have hpolar : polar = [0, 0, 0] := by
      unfold polarIce at p1
      obtain ⟨⟨a, t1⟩, r1, p1⟩ := bind_ok_inv p1
      obtain ⟨⟨b, t2⟩, r2, p1⟩ := bind_ok_inv p1
      obtain ⟨w, r3, p1⟩ := bind_ok_inv p1
      injection p1 with p1
      injection p1 with p1 _
      have hz := (C116_dry _ _ rfl _ _ _ _ _).1 rfl r1
      obtain ⟨a', t', r1', hl⟩ := impactIce_ok constGen constGen_lawful (toy_physical ["A"])
        [toyRow toyA 4e9, toyRow toyB 3e9, toyRow toyX 2e9] (by
          intro r hr hb
          simp only [List.mem_cons, List.not_mem_nil, or_false] at hr
          rcases hr with rfl | rfl | rfl <;> cases hb) [3e9, 2e9, 1e9] (by simp) s1
      have e := r1'.symm.trans r1
      injection e with e
      injection e with e _
      subst e
      have hw : w = [0, 0, 0] := by
        have : solarWindIce (toyTraps ["A"]).solar (readLuminosity toyData.lum) [3e9, 2e9, 1e9] =
          .ok [0, 0, 0] := rfl
        have := r3.symm.trans this
        injection this
      rw [← p1]
      change addArr a' w = _
      have hl' := hl.1
      match a', hl' with
      | [u, v, x], _ =>
        rw [hz u (by simp), hz v (by simp), hz x (by simp), hw]
        simp [addArr]
    have hq : pv = (polar, volc.map fun v => v * (0.26 / 0.054)) := by
      have := q1.symm.trans (show volcShare (toyTraps ["A"]).cols polar volc =
        .ok (polar, volc.map fun v => v * (0.26 / 0.054)) from by
          unfold volcShare
          exact (if_pos rfl).trans (if_neg (show ¬ (0.054 : ℝ) = 0 by norm_num)))
      injection this
    obtain ⟨v1, v2, hv⟩ : ∃ v1 v2, volcanicHead (toyTraps ["A"]).head [3e9, 2e9, 1e9] =
        [1e7 * 1e9 * 1e-9 * 3000 * 10 * (1 / 1000000) * 0.25 * 1e9, v1, v2] := by
      refine ⟨_, _, List.cons_eq_cons.2 ⟨?_, rfl⟩⟩
      exact if_pos (show (3e9 : ℝ) ≤ 3e9 ∧ (3e9 : ℝ) > 2e9 by norm_num)
    have hp2 : volc = (volcanicHead (toyTraps ["A"]).head [3e9, 2e9, 1e9]).map
        fun m => perKg (toyTraps ["A"]) * m := by
      have := p2.symm.trans (((C46_mode _ _ _ _ _ _ _ _ _).1 rfl).trans
        (thicknessOf_eq (toy_physical ["A"]) _))
      injection this
    have hk : perKg (toyTraps ["A"]) = 0.054 / 934 / (1.3e4 * 1e6) := by
      unfold perKg
      exact congrArg _ (if_pos rfl)
    rw [hq, hp2, hv, hpolar, hk]
    refine ⟨_, _, List.cons_eq_cons.2 ⟨?_, rfl⟩⟩
    change (if (toyTraps ["A"]).cols.ballistic_hop_moores = true then _ else (0 : ℝ)) + _ = _
    rw [show (if (toyTraps ["A"]).cols.ballistic_hop_moores = true then
      b / (toyTraps ["A"]).cols.ballistic_hop_effcy * 0 else (0 : ℝ)) = 0 from if_neg Bool.false_ne_true]
    unfold toyIce
    norm_num
  obtain ⟨src, rfl⟩ := hej
  obtain ⟨x1, x2, hx⟩ := hice
  have : st.cols = [("A", ⟨column ice 0, [0, toyThick 1, 0], src⟩)] := by
    have := k3.symm.trans (show buildCols ice [([0, toyThick 1, 0], src)] 0 (toyTraps ["A"]).coldtrap_names [] =
      .ok [("A", ⟨column ice 0, [0, toyThick 1, 0], src⟩)] from rfl)
    injection this
  rw [this]
  exact ⟨_, x1, x2, toyThick 1, rfl, hx, rfl⟩

end MoonPIES
