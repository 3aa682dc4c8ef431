import Verif.Spec.Products
import Verif.Lemmas.InUse
import Verif.Lemmas.Supply
import Mathlib.Tactic.FieldSimp

/-!
# Lemmas for C148
-/

namespace MoonPIES

open Spec

variable {σ : Type}

/-- Runs from equal parts are equal. -/
theorem run_same_parts (g : Gen σ) {c c' : RunCfg} {d d' : RunData} (hset : d'.setOrder = d.setOrder)
    (hseed : c'.seed = c.seed) (h1 : c'.timestart = c.timestart) (h2 : c'.timeend = c.timeend)
    (h3 : c'.timestep = c.timestep) (hl : ∀ s, craterBasinList g c' d' s = craterBasinList g c d s)
    (hej : c'.ej = c.ej) (hn : c'.coldtrap_names = c.coldtrap_names) (hm : c'.thickness_min = c.thickness_min)
    (hs : c'.strat_after_age = c.strat_after_age)
    (hcost : c'.impact_gardening_costello = c.impact_gardening_costello)
    (hice : ∀ df time s, iceCols g c' d' df time s = iceCols g c d df time s)
    (hb : ∀ time df dists thick, bsedArrays c' d' time df dists thick = bsedArrays c d time df dists thick)
    (ho : c'.overturn = c.overturn) : runMain g c' d' = runMain g c d := by
  have hsetup : setup g c' d' = setup g c d := by
    unfold setup thicknessMatrix initStratCols
    simp only [hseed, h1, h2, h3, hl, hej, hn, hm, hice, hb, ho]
  have hf : ∀ time cols ages acc, formatLoop c' time cols ages acc = formatLoop c time cols ages acc := by
    intro time cols ages
    induction ages with
    | nil => intro acc; rfl
    | cons a rest ih =>
      intro acc
      simp only [formatLoop, ih, hm, hs]
  unfold runMain formatCsv
  simp only [hsetup, hcost, hn, hf, hset]

theorem iceCols_same_parts (g : Gen σ) {c c' : RunCfg} (d : RunData) (df : CraterTable) (time : List ℝ)
    (hpolar : ∀ s, polarIce g c' (readLuminosity d.lum) df time s = polarIce g c (readLuminosity d.lum) df time s)
    (hvolc : ∀ rint tol ts, volcanicIce c'.volc_mode c'.ice c'.head rint d.sortNk tol ts time d.nk =
      volcanicIce c.volc_mode c.ice c.head rint d.sortNk tol ts time d.nk)
    (hts : c'.timestep = c.timestep)
    (hcols : ∀ polar volc, iceColsTime c'.cols d.hop polar volc = iceColsTime c.cols d.hop polar volc) (s : σ) :
    iceCols g c' d df time s = iceCols g c d df time s := by
  unfold iceCols
  simp only [hpolar, hvolc, hcols, hts]

/-! ## Area and density -/

theorem area_thick {k : ℝ} (hk : k ≠ 0) (c : RunCfg) (m : ℝ) :
    iceThickness (tradeArea k c).ice m = iceThickness c.ice m := by
  have key : ∀ a : ℝ, m * c.ballistic_hop_effcy / (c.ice_density / k) / (k * a) =
      m * c.ballistic_hop_effcy / c.ice_density / a := by
    intro a
    by_cases ha : a = 0
    · simp [ha]
    by_cases hd : c.ice_density = 0
    · simp [hd]
    field_simp
  unfold iceThickness RunCfg.ice tradeArea
  simp only []
  by_cases h1 : c.ice_species = "H2O"
  · rw [if_pos h1, if_pos h1]
    exact congrArg Except.ok (key _)
  · rw [if_neg h1, if_neg h1]
    by_cases h2 : c.ice_species = "CO2"
    · rw [if_pos h2, if_pos h2]
      exact congrArg Except.ok (key _)
    · rw [if_neg h2, if_neg h2]
      rfl

theorem area_impact {k : ℝ} (hk : k ≠ 0) (g : Gen σ) (c : RunCfg) (df : CraterTable) (time : List ℝ) (s : σ) :
    impactIce g (tradeArea k c) df time s = impactIce g c df time s := by
  refine impactIce_same g c (tradeArea k c) df time ?_ rfl rfl rfl (fun _ => rfl) (fun _ => rfl) (fun _ _ => rfl)
    (fun _ _ _ => rfl) rfl rfl s
  intro m
  unfold thicknessOf
  simp only [area_thick hk]

theorem area_polar {k : ℝ} (hk : k ≠ 0) (g : Gen σ) (c : RunCfg) (lum : List (ℝ × ℝ)) (df : CraterTable)
    (time : List ℝ) (s : σ) : polarIce g (tradeArea k c) lum df time s = polarIce g c lum df time s := by
  have hs : solarWindIce (tradeArea k c).solar lum time = solarWindIce c.solar lum time := by
    have ht : ∀ m, iceThickness (tradeArea k c).solar.toIceCfg m = iceThickness c.solar.toIceCfg m := area_thick hk c
    unfold solarWindIce
    simp only [ht]
    rfl
  have hcm : ∀ s, impactIce g (tradeArea k c).comet df time s = impactIce g c.comet df time s :=
    fun s => area_impact hk g c.comet df time s
  have hsw : (tradeArea k c).impact_ice_comets = c.impact_ice_comets := rfl
  unfold polarIce impactIceComet
  simp only [area_impact hk, hcm, hs, hsw]

/-! ## C-types -/

theorem ctype_product {k : ℝ} (hk : k ≠ 0) (c : RunCfg) :
    (tradeCtype k c).ctype_frac * (tradeCtype k c).ctype_hydrated = c.ctype_frac * c.ctype_hydrated := by
  change k * c.ctype_frac * (c.ctype_hydrated / k) = _
  field_simp

theorem ctype_icy {k : ℝ} (hk : k ≠ 0) (c : RunCfg) (u : List ℝ) :
    icyBasins (tradeCtype k c).imp u = icyBasins c.imp u := by
  have h : hydProbBasins (tradeCtype k c).imp = hydProbBasins c.imp := by
    unfold hydProbBasins
    change (if c.impact_ice_comets = true then (1 - c.comet_ast_frac) * (tradeCtype k c).ctype_frac *
      (tradeCtype k c).ctype_hydrated else (tradeCtype k c).ctype_frac * (tradeCtype k c).ctype_hydrated) = _
    rw [mul_assoc, ctype_product hk, ← mul_assoc]
    rfl
  unfold icyBasins hydratedBasins
  rw [h]
  rfl

theorem ctype_impact {k : ℝ} (hk : k ≠ 0) (g : Gen σ) (c : RunCfg) (df : CraterTable) (time : List ℝ) (s : σ) :
    impactIce g (tradeCtype k c) df time s = impactIce g c df time s := by
  have hw : ∀ m, mass2water (tradeCtype k c).flux m = mass2water c.flux m := by
    intro m
    unfold mass2water
    change (if c.is_comet = true then _ else (tradeCtype k c).ctype_frac * (tradeCtype k c).ctype_hydrated *
      c.hydrated_wt_pct * m * c.impact_mass_retained) = _
    rw [ctype_product hk]
    rfl
  refine impactIce_same g c (tradeCtype k c) df time (fun _ => rfl) rfl ?_ ?_ (fun _ => rfl) ?_ (fun _ _ => rfl)
    (fun _ _ _ => rfl) rfl rfl s
  · unfold smallImpactorIce iceSmallImpactors
    simp only [hw]
    rfl
  · unfold smallCraterIce iceSmallCraters
    simp only [hw]
    rfl
  · intro u
    have h : hydProbCraters (tradeCtype k c).imp = hydProbCraters c.imp := by
      unfold hydProbCraters
      change (if c.is_comet = true then c.comet_ast_frac else if c.impact_ice_comets = true then
        (1 - c.comet_ast_frac) * (tradeCtype k c).ctype_frac * (tradeCtype k c).ctype_hydrated else
        (tradeCtype k c).ctype_frac * (tradeCtype k c).ctype_hydrated) = _
      rw [mul_assoc, ctype_product hk, ← mul_assoc]
      rfl
    unfold hydratedCraters
    rw [h]

/-! ## Small impactors -/

theorem brown_impact (k : ℝ) (g : Gen σ) (c : RunCfg) (df : CraterTable) (time : List ℝ) (s : σ) :
    impactIce g (tradeBrown k c) df time s = impactIce g c df time s := by
  have h10 : (10 : ℝ) ^ k ≠ 0 := (Real.rpow_pos_of_pos (by norm_num) k).ne'
  have hb : ∀ a b t, impactorsBrown a b t (tradeBrown k c).flux = impactorsBrown a b t c.flux := by
    intro a b t
    unfold impactorsBrown
    have e : ∀ x : ℝ, (10 : ℝ) ^ (c.brown_c0 + k - x) = 10 ^ (c.brown_c0 - x) * 10 ^ k := by
      intro x
      rw [← Real.rpow_add (by norm_num)]
      congr 1
      ring
    change cometSplit c.flux ((10 ^ (c.brown_c0 + k - c.brown_d0 * _) - 10 ^ (c.brown_c0 + k - c.brown_d0 * _)) * t /
      (c.earth_moon_ratio * 10 ^ k)) = _
    rw [e, e, ← sub_mul, mul_right_comm, mul_div_mul_right _ _ h10]
    rfl
  refine impactIce_same g c (tradeBrown k c) df time (fun _ => rfl) rfl ?_ rfl (fun _ => rfl) (fun _ => rfl)
    (fun _ _ => rfl) (fun _ _ _ => rfl) rfl rfl s
  unfold smallImpactorIce smallImpactorPop
  simp only [hb]
  rfl

/-! ## Volcanism -/

theorem magma_head {k m : ℝ} (hk : k ≠ 0) (hm : m ≠ 0) (c : RunCfg) (time : List ℝ) :
    volcanicHead (tradeMagma k m c).head time = volcanicHead c.head time := by
  have e : k * c.volc_total_vol * (m * c.volc_magma_density) * (c.volc_ice_ppm / (k * m)) * (1 / 1000000) =
      c.volc_total_vol * c.volc_magma_density * c.volc_ice_ppm * (1 / 1000000) := by
    field_simp
  unfold volcanicHead RunCfg.head tradeMagma
  simp only [e]

theorem magma_volc {k m : ℝ} (hk : k ≠ 0) (hm : m ≠ 0) (c : RunCfg) (rint : ℝ → ℝ)
    (sort : List (ℝ × ℝ) → List (ℝ × ℝ)) (tol ts : ℝ) (time : List ℝ) (rows : List (ℝ × ℝ)) :
    volcanicIce (tradeMagma k m c).volc_mode (tradeMagma k m c).ice (tradeMagma k m c).head rint sort tol ts time rows =
      volcanicIce c.volc_mode c.ice c.head rint sort tol ts time rows := by
  unfold volcanicIce
  rw [magma_head hk hm]
  rfl

theorem magma_polar {k m : ℝ} (g : Gen σ) (c : RunCfg) (lum : List (ℝ × ℝ)) (df : CraterTable)
    (time : List ℝ) (s : σ) : polarIce g (tradeMagma k m c) lum df time s = polarIce g c lum df time s := by
  have hi : ∀ (c : RunCfg) s, impactIce g (tradeMagma k m c) df time s = impactIce g c df time s := fun c s =>
    impactIce_same g c (tradeMagma k m c) df time (fun _ => rfl) rfl rfl rfl (fun _ => rfl) (fun _ => rfl)
      (fun _ _ => rfl) (fun _ _ _ => rfl) rfl rfl s
  have hcm : ∀ s, impactIce g (tradeMagma k m c).comet df time s = impactIce g c.comet df time s :=
    fun s => hi c.comet s
  unfold polarIce impactIceComet
  simp only [hi, hcm]
  rfl

/-! ## Overall hop efficiency -/

section Hop
variable {h : ℝ} {c : RunCfg}

theorem hop_thick_one (h0 : c.ballistic_hop_effcy ≠ 0) (m : ℝ) : iceThickness (withHop h c).ice m =
    (iceThickness c.ice m).map (fun y => h / c.ballistic_hop_effcy * y) := by
  have key : ∀ a : ℝ, m * h / c.ice_density / a =
      h / c.ballistic_hop_effcy * (m * c.ballistic_hop_effcy / c.ice_density / a) := by
    intro a
    have : m * h = h / c.ballistic_hop_effcy * (m * c.ballistic_hop_effcy) := by field_simp
    rw [this]
    ring
  unfold iceThickness RunCfg.ice withHop
  simp only []
  split
  · exact congrArg Except.ok (key _)
  · split
    · exact congrArg Except.ok (key _)
    · rfl

theorem hop_thick (h0 : c.ballistic_hop_effcy ≠ 0) (l : List ℝ) : thicknessOf (withHop h c) l =
    (thicknessOf c l).map (scaleArr (h / c.ballistic_hop_effcy)) :=
  mapM_scale _ _ _ (hop_thick_one h0) l

theorem hop_nonBasin (h0 : c.ballistic_hop_effcy ≠ 0) (g : Gen σ) (time : List ℝ) (s : σ) :
    nonBasinIce g (withHop h c) time s = scaleRes (h / c.ballistic_hop_effcy) (nonBasinIce g c time s) := by
  have hz : time.map (fun _ => (0 : ℝ)) = scaleArr (h / c.ballistic_hop_effcy) (time.map (fun _ => (0 : ℝ))) := by
    unfold scaleArr
    rw [List.map_map]
    apply List.map_congr_left
    intro t _
    exact (mul_zero _).symm
  have hst : ∀ r s, iceStochastic g (withHop h c) time r s = iceStochastic g c time r s := by
    intro r s
    unfold iceStochastic
    have := fun ds ps => stochLoop_same g c (withHop h c) r ds ps (fun _ => rfl) (fun _ _ => rfl) (fun _ _ _ => rfl)
    simp only [this]
    rfl
  unfold nonBasinIce
  rw [show iceMicrometeorites (withHop h c).flux time = iceMicrometeorites c.flux time from rfl,
    show smallImpactorIce (withHop h c).flux time = smallImpactorIce c.flux time from rfl,
    show smallCraterIce (withHop h c).flux time = smallCraterIce c.flux time from rfl]
  simp only [hop_thick h0, hst, bind, Except.bind]
  cases thicknessOf c (iceMicrometeorites c.flux time) with
  | error e => rfl
  | ok a =>
    cases smallImpactorIce c.flux time with
    | error e => rfl
    | ok m =>
      simp only [Except.map]
      cases thicknessOf c m with
      | error e => rfl
      | ok a2 =>
        cases smallCraterIce c.flux time with
        | error e => rfl
        | ok m =>
          simp only []
          cases thicknessOf c m with
          | error e => rfl
          | ok a3 =>
            cases iceStochastic g c time "d" s with
            | error e => rfl
            | ok p =>
              simp only []
              cases thicknessOf c p.1 with
              | error e => rfl
              | ok a4 =>
                simp only []
                cases iceStochastic g c time "e" p.2 with
                | error e => rfl
                | ok q =>
                  simp only []
                  cases thicknessOf c q.1 with
                  | error e => rfl
                  | ok a5 =>
                    change Except.ok _ = Except.ok _
                    rw [scaleArr_addArr, scaleArr_addArr, scaleArr_addArr, scaleArr_addArr, scaleArr_addArr, ← hz]

theorem hop_impact (h0 : c.ballistic_hop_effcy ≠ 0) (g : Gen σ) (df : CraterTable) (time : List ℝ) (s : σ) :
    impactIce g (withHop h c) df time s = scaleRes (h / c.ballistic_hop_effcy) (impactIce g c df time s) := by
  unfold impactIce
  rw [hop_nonBasin h0]
  simp only [bind, Except.bind]
  cases nonBasinIce g c time s with
  | error e => rfl
  | ok p =>
    simp only [scaleRes]
    rw [show iceBasins g (withHop h c) df time p.2 = iceBasins g c df time p.2 from rfl]
    cases iceBasins g c df time p.2 with
    | error e => rfl
    | ok q =>
      simp only [hop_thick h0]
      cases thicknessOf c q.1 with
      | error e => rfl
      | ok b =>
        rw [show (withHop h c).impact_ice_basins = c.impact_ice_basins from rfl]
        simp only [Except.map]
        cases c.impact_ice_basins with
        | false => rfl
        | true =>
          change Except.ok _ = Except.ok _
          rw [if_pos rfl, if_pos rfl, scaleArr_addArr]

theorem hop_solar (h0 : c.ballistic_hop_effcy ≠ 0) (lum : List (ℝ × ℝ)) (time : List ℝ) :
    solarWindIce (withHop h c).solar lum time =
      (solarWindIce c.solar lum time).map (scaleArr (h / c.ballistic_hop_effcy)) := by
  unfold solarWindIce
  rw [show (withHop h c).solar.solar_wind_ice = c.solar.solar_wind_ice from rfl,
    show solarWindMass (withHop h c).solar lum time = solarWindMass c.solar lum time from rfl]
  cases c.solar.solar_wind_ice with
  | false =>
    change Except.ok _ = Except.ok (scaleArr _ _)
    unfold scaleArr
    rw [List.map_map]
    congr 1
    apply List.map_congr_left
    intro t _
    exact (mul_zero _).symm
  | true =>
    simp only [if_true]
    cases solarWindMass c.solar lum time with
    | error e => rfl
    | ok m => exact hop_thick h0 m

theorem hop_polar (h0 : c.ballistic_hop_effcy ≠ 0) (g : Gen σ) (lum : List (ℝ × ℝ)) (df : CraterTable)
    (time : List ℝ) (s : σ) : polarIce g (withHop h c) lum df time s =
      scaleRes (h / c.ballistic_hop_effcy) (polarIce g c lum df time s) := by
  have hcm : ∀ s, impactIce g (withHop h c).comet df time s =
      scaleRes (h / c.ballistic_hop_effcy) (impactIce g c.comet df time s) :=
    fun s => hop_impact (c := c.comet) h0 g df time s
  unfold polarIce impactIceComet
  rw [hop_impact h0, hop_solar h0]
  simp only [bind, Except.bind, hcm]
  cases impactIce g c df time s with
  | error e => rfl
  | ok p =>
    simp only [scaleRes]
    cases impactIce g c.comet df time p.2 with
    | error e => rfl
    | ok q =>
      simp only []
      cases solarWindIce c.solar lum time with
      | error e => rfl
      | ok sol =>
        rw [show (withHop h c).impact_ice_comets = c.impact_ice_comets from rfl]
        simp only [Except.map]
        cases c.impact_ice_comets with
        | false =>
          change Except.ok _ = Except.ok _
          rw [if_neg (by simp), if_neg (by simp), scaleArr_addArr]
        | true =>
          change Except.ok _ = Except.ok _
          rw [if_pos rfl, if_pos rfl, scaleArr_addArr, scaleArr_addArr]

theorem hop_volc (h0 : c.ballistic_hop_effcy ≠ 0) (rint : ℝ → ℝ)
    (sort : List (ℝ × ℝ) → List (ℝ × ℝ)) (tol ts : ℝ) (time : List ℝ) (rows : List (ℝ × ℝ)) :
    volcanicIce (withHop h c).volc_mode (withHop h c).ice (withHop h c).head rint sort tol ts time rows =
      (volcanicIce c.volc_mode c.ice c.head rint sort tol ts time rows).map
        (scaleArr (h / c.ballistic_hop_effcy)) := by
  have key : ∀ m : Except PyErr (List ℝ), (m >>= fun l => l.mapM (fun m => iceThickness (withHop h c).ice m)) =
      (m >>= fun l => l.mapM (fun m => iceThickness c.ice m)).map (scaleArr (h / c.ballistic_hop_effcy)) := by
    intro m
    cases m with
    | error e => rfl
    | ok l => exact hop_thick h0 l
  unfold volcanicIce
  rw [show (withHop h c).volc_mode = c.volc_mode from rfl, show (withHop h c).head = c.head from rfl]
  simp only []
  split
  · exact key _
  · split
    · exact key (.ok _)
    · exact key (.error _)

theorem hop_cols (hh : h ≠ 0) (h0 : c.ballistic_hop_effcy ≠ 0) (hm : c.ballistic_hop_moores = true)
    (table : PyDict ℝ) (polar volc : List ℝ) :
    iceColsTime (withHop h c).cols table (scaleArr (h / c.ballistic_hop_effcy) polar)
      (scaleArr (h / c.ballistic_hop_effcy) volc) = iceColsTime c.cols table polar volc := by
  have hrows : ∀ p, trapRows (withHop h c).cols table (scaleArr (h / c.ballistic_hop_effcy) p) =
      trapRows c.cols table p := by
    intro p
    have m1 : (withHop h c).cols.ballistic_hop_moores = true := hm
    have m2 : c.cols.ballistic_hop_moores = true := hm
    unfold trapRows
    rw [m1, m2, if_pos rfl, if_pos rfl]
    rw [show (withHop h c).cols.coldtrap_names = c.cols.coldtrap_names from rfl]
    congr 1
    funext bs
    congr 1
    unfold scaleArr
    rw [List.map_map]
    apply List.map_congr_left
    intro x _
    apply List.map_congr_left
    intro b _
    change b / h * (h / c.ballistic_hop_effcy * x) = b / c.ballistic_hop_effcy * x
    field_simp
  unfold iceColsTime volcShare
  rw [show (withHop h c).cols.use_volc_dep_effcy = c.cols.use_volc_dep_effcy from rfl]
  cases c.cols.use_volc_dep_effcy with
  | true =>
    rw [if_pos rfl, if_pos rfl, if_neg (show (withHop h c).cols.ballistic_hop_effcy ≠ 0 from hh),
      if_neg (show c.cols.ballistic_hop_effcy ≠ 0 from h0)]
    change (trapRows (withHop h c).cols table _ >>= _) = (trapRows c.cols table _ >>= _)
    rw [hrows]
    congr 1
    funext rows
    congr 2
    unfold scaleArr
    rw [List.map_map]
    apply List.map_congr_left
    intro v _
    change h / c.ballistic_hop_effcy * v * (c.volc_dep_effcy / h) = v * (c.volc_dep_effcy / c.ballistic_hop_effcy)
    field_simp
  | false =>
    rw [if_neg (by simp), if_neg (by simp)]
    change (trapRows (withHop h c).cols table (addArr (scaleArr _ polar) (scaleArr _ volc)) >>= _) =
      (trapRows c.cols table (addArr polar volc) >>= _)
    rw [← scaleArr_addArr, hrows]
    congr 1
    funext rows
    congr 2
    unfold scaleArr
    rw [List.map_map]
    apply List.map_congr_left
    intro v _
    change h / c.ballistic_hop_effcy * v * 0 = v * 0
    rw [mul_zero, mul_zero]

theorem hop_iceCols (hh : h ≠ 0) (h0 : c.ballistic_hop_effcy ≠ 0) (hm : c.ballistic_hop_moores = true)
    (g : Gen σ) (d : RunData) (df : CraterTable) (time : List ℝ) (s : σ) :
    iceCols g (withHop h c) d df time s = iceCols g c d df time s := by
  unfold iceCols
  rw [hop_polar h0, hop_volc h0]
  simp only [bind, Except.bind]
  cases polarIce g c (readLuminosity d.lum) df time s with
  | error e => rfl
  | ok p =>
    simp only [scaleRes]
    rw [show (withHop h c).timestep = c.timestep from rfl]
    cases volcanicIce c.volc_mode c.ice c.head (fun x => (roundHalfEven x : ℝ)) d.sortNk RunCfg.rtol c.timestep
        time d.nk with
    | error e => rfl
    | ok v =>
      simp only [Except.map]
      rw [hop_cols hh h0 hm]

/-- Without the table of hop efficiencies all ice is proportional to the overall one. -/
theorem hop_cols_off (hm : c.ballistic_hop_moores = false)
    (hv : c.use_volc_dep_effcy = false) (table : PyDict ℝ) (polar volc : List ℝ) :
    iceColsTime (withHop h c).cols table (scaleArr (h / c.ballistic_hop_effcy) polar)
      (scaleArr (h / c.ballistic_hop_effcy) volc) =
        (iceColsTime c.cols table polar volc).map (fun rows => rows.map (scaleArr (h / c.ballistic_hop_effcy))) := by
  have m1 : (withHop h c).cols.ballistic_hop_moores = false := hm
  have m2 : c.cols.ballistic_hop_moores = false := hm
  have v1 : (withHop h c).cols.use_volc_dep_effcy = false := hv
  have v2 : c.cols.use_volc_dep_effcy = false := hv
  unfold iceColsTime volcShare trapRows
  rw [m1, m2, v1, v2]
  simp only [Bool.false_eq_true, if_false]
  change Except.ok (List.zipWith _ (List.map _ (addArr (scaleArr _ polar) (scaleArr _ volc))) _) =
    Except.ok (List.map _ (List.zipWith _ (List.map _ (addArr polar volc)) _))
  rw [← scaleArr_addArr]
  congr 1
  unfold scaleArr
  rw [List.map_map, List.map_zipWith, List.map_map, List.zipWith_map, List.zipWith_map]
  congr 1
  funext x v
  simp only [List.map_replicate, Function.comp]
  change List.replicate c.coldtrap_names.length _ = List.replicate c.coldtrap_names.length _
  congr 1
  ring

theorem hop_iceCols_off (h0 : c.ballistic_hop_effcy ≠ 0) (hm : c.ballistic_hop_moores = false)
    (hv : c.use_volc_dep_effcy = false) (g : Gen σ) (d : RunData) (df : CraterTable) (time : List ℝ) (s : σ) :
    iceCols g (withHop h c) d df time s =
      (iceCols g c d df time s).map (fun r => (r.1.map (scaleArr (h / c.ballistic_hop_effcy)), r.2)) := by
  unfold iceCols
  rw [hop_polar h0, hop_volc h0]
  simp only [bind, Except.bind]
  cases polarIce g c (readLuminosity d.lum) df time s with
  | error e => rfl
  | ok p =>
    simp only [scaleRes]
    rw [show (withHop h c).timestep = c.timestep from rfl]
    cases volcanicIce c.volc_mode c.ice c.head (fun x => (roundHalfEven x : ℝ)) d.sortNk RunCfg.rtol c.timestep
        time d.nk with
    | error e => rfl
    | ok v =>
      simp only [Except.map]
      rw [hop_cols_off hm hv]
      cases iceColsTime c.cols d.hop p.1 v with
      | error e => rfl
      | ok r => rfl

end Hop

/-! ## Efficiencies and density together -/

section Effcy
variable {k : ℝ}

theorem effcy_thick (hk : k ≠ 0) (c : RunCfg) (m : ℝ) :
    iceThickness (tradeEffcy k c).ice m = iceThickness c.ice m := by
  unfold iceThickness RunCfg.ice tradeEffcy
  simp only []
  rw [mul_left_comm m k, mul_div_mul_left _ _ hk]

theorem effcy_impact (hk : k ≠ 0) (g : Gen σ) (c : RunCfg) (df : CraterTable) (time : List ℝ) (s : σ) :
    impactIce g (tradeEffcy k c) df time s = impactIce g c df time s := by
  refine impactIce_same g c (tradeEffcy k c) df time ?_ rfl rfl rfl (fun _ => rfl) (fun _ => rfl) (fun _ _ => rfl)
    (fun _ _ _ => rfl) rfl rfl s
  intro m
  unfold thicknessOf
  simp only [effcy_thick hk]

theorem effcy_polar (hk : k ≠ 0) (g : Gen σ) (c : RunCfg) (lum : List (ℝ × ℝ)) (df : CraterTable)
    (time : List ℝ) (s : σ) : polarIce g (tradeEffcy k c) lum df time s = polarIce g c lum df time s := by
  have hs : solarWindIce (tradeEffcy k c).solar lum time = solarWindIce c.solar lum time := by
    have ht : ∀ m, iceThickness (tradeEffcy k c).solar.toIceCfg m = iceThickness c.solar.toIceCfg m :=
      effcy_thick hk c
    unfold solarWindIce
    simp only [ht]
    rfl
  have hcm : ∀ s, impactIce g (tradeEffcy k c).comet df time s = impactIce g c.comet df time s :=
    fun s => effcy_impact hk g c.comet df time s
  have hsw : (tradeEffcy k c).impact_ice_comets = c.impact_ice_comets := rfl
  unfold polarIce impactIceComet
  simp only [effcy_impact hk, hcm, hs, hsw]

theorem effcy_get (k : ℝ) (table : PyDict ℝ) (n : String) :
    PyDict.get (scaleHop k table) n = (PyDict.get table n).map (k * ·) := by
  induction table with
  | nil => rfl
  | cons p rest ih =>
    change (if p.1 = n then Except.ok (k * p.2) else PyDict.get (scaleHop k rest) n) =
      (if p.1 = n then Except.ok p.2 else PyDict.get rest n).map (k * ·)
    rw [ih]
    split <;> rfl

theorem effcy_cols (hk : k ≠ 0) (c : RunCfg) (table : PyDict ℝ) (polar volc : List ℝ) :
    iceColsTime (tradeEffcy k c).cols (scaleHop k table) polar volc = iceColsTime c.cols table polar volc := by
  have hrows : ∀ p, trapRows (tradeEffcy k c).cols (scaleHop k table) p = trapRows c.cols table p := by
    intro p
    have hb : hopColdtraps (scaleHop k table) c.coldtrap_names =
        (hopColdtraps table c.coldtrap_names).map (scaleArr k) :=
      mapM_scale _ _ k (effcy_get k table) _
    unfold trapRows
    rw [show (tradeEffcy k c).cols.ballistic_hop_moores = c.cols.ballistic_hop_moores from rfl,
      show (tradeEffcy k c).cols.coldtrap_names = c.coldtrap_names from rfl,
      show c.cols.coldtrap_names = c.coldtrap_names from rfl, hb]
    cases c.cols.ballistic_hop_moores with
    | false => rfl
    | true =>
      rw [if_pos rfl, if_pos rfl]
      cases hopColdtraps table c.coldtrap_names with
      | error e => rfl
      | ok bs =>
        change Except.ok (p.map _) = Except.ok (p.map _)
        congr 1
        apply List.map_congr_left
        intro x _
        unfold scaleArr
        rw [List.map_map]
        apply List.map_congr_left
        intro b _
        change k * b / (k * c.ballistic_hop_effcy) * x = b / c.ballistic_hop_effcy * x
        rw [mul_div_mul_left _ _ hk]
  have hv : volcShare (tradeEffcy k c).cols polar volc = volcShare c.cols polar volc := by
    unfold volcShare
    change (if c.use_volc_dep_effcy then if k * c.ballistic_hop_effcy = 0 then _ else
      Except.ok (polar, volc.map (fun v => v * (k * c.volc_dep_effcy / (k * c.ballistic_hop_effcy)))) else _) =
      (if c.use_volc_dep_effcy then if c.ballistic_hop_effcy = 0 then _ else
      Except.ok (polar, volc.map (fun v => v * (c.volc_dep_effcy / c.ballistic_hop_effcy))) else _)
    simp only [mul_div_mul_left _ _ hk, mul_eq_zero, hk, false_or]
  unfold iceColsTime
  rw [hv]
  simp only [hrows]

theorem effcy_iceCols (hk : k ≠ 0) (g : Gen σ) (c : RunCfg) (d : RunData) (df : CraterTable) (time : List ℝ)
    (s : σ) : iceCols g (tradeEffcy k c) { d with hop := scaleHop k d.hop } df time s = iceCols g c d df time s := by
  have hv : volcanicIce (tradeEffcy k c).volc_mode (tradeEffcy k c).ice (tradeEffcy k c).head =
      volcanicIce c.volc_mode c.ice c.head := by
    funext rint sort tol ts time rows
    unfold volcanicIce
    simp only [effcy_thick hk]
    rfl
  unfold iceCols
  simp only [effcy_polar hk, hv, effcy_cols hk]
  rfl

end Effcy

end MoonPIES
