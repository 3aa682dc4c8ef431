import Verif.Spec.InUse
import Verif.Lemmas.Main

/-!
# Lemmas for C146
-/

namespace MoonPIES

open Spec

variable {σ : Type}

/-! ## Impact ice -/

theorem stochLoop_same (g : Gen σ) (c c' : RunCfg) (regime : String) (diams prob : List ℝ)
    (hhyd : ∀ u, hydratedCraters c'.imp u = hydratedCraters c.imp u)
    (hsp : ∀ n s, impactorSpeeds g c' n s = impactorSpeeds g c n s)
    (hlc : ∀ r x y, largeCraterIce c' r x y = largeCraterIce c r x y) :
    ∀ ns s, stochLoop g c' regime diams prob ns s = stochLoop g c regime diams prob ns s := by
  intro ns
  induction ns with
  | nil => intro s; rfl
  | cons n ns ih =>
    intro s
    have hl : ∀ a b, largeCratersIce c' a b regime = largeCratersIce c a b regime := by
      intro a b; unfold largeCratersIce; simp only [hlc]
    simp only [stochLoop, hhyd, hsp, hl, ih]

theorem impactIce_same (g : Gen σ) (c c' : RunCfg) (df : CraterTable) (time : List ℝ)
    (hth : ∀ m, thicknessOf c' m = thicknessOf c m)
    (hmm : iceMicrometeorites c'.flux time = iceMicrometeorites c.flux time)
    (hsi : smallImpactorIce c'.flux time = smallImpactorIce c.flux time)
    (hsc : smallCraterIce c'.flux time = smallCraterIce c.flux time)
    (hpop : ∀ r, craterPop c'.flux time r = craterPop c.flux time r)
    (hhyd : ∀ u, hydratedCraters c'.imp u = hydratedCraters c.imp u)
    (hsp : ∀ n s, impactorSpeeds g c' n s = impactorSpeeds g c n s)
    (hlc : ∀ r x y, largeCraterIce c' r x y = largeCraterIce c r x y)
    (hco : c'.is_comet = c.is_comet) (hba : c'.impact_ice_basins = c.impact_ice_basins) (s : σ) :
    impactIce g c' df time s = impactIce g c df time s := by
  have hst : ∀ r s, iceStochastic g c' time r s = iceStochastic g c time r s := by
    intro r s
    unfold iceStochastic
    simp only [hpop, stochLoop_same g c c' r _ _ hhyd hsp hlc]
  have hnb : ∀ s, nonBasinIce g c' time s = nonBasinIce g c time s := by
    intro s
    unfold nonBasinIce
    simp only [hth, hmm, hsi, hsc, hst]
  have hib : ∀ s, iceBasins g c' df time s = iceBasins g c df time s := by
    intro s
    have hr : icyRows c' df = icyRows c df := by unfold icyRows; rw [hco]
    unfold iceBasins
    simp only [hr, hsp, hlc]
  unfold impactIce
  simp only [hnb, hib, hth, hba]

theorem iceThickness_same {c c' : RunCfg} {d d' : RunData} (h : SameInUse c c' d d') (m : ℝ) :
    iceThickness c'.ice m = iceThickness c.ice m := by
  unfold iceThickness RunCfg.ice
  simp only [h.ice_species, h.ballistic_hop_effcy, h.ice_density]
  by_cases h1 : c.ice_species = "H2O"
  · rw [if_pos h1, if_pos h1, h.coldtrap_area_H2O h1]
  · rw [if_neg h1, if_neg h1]
    by_cases h2 : c.ice_species = "CO2"
    · rw [if_pos h2, if_pos h2, h.coldtrap_area_CO2 h2]
    · rw [if_neg h2, if_neg h2]

theorem thicknessOf_same {c c' : RunCfg} {d d' : RunData} (h : SameInUse c c' d d') (m : List ℝ) :
    thicknessOf c' m = thicknessOf c m := by
  unfold thicknessOf
  simp only [iceThickness_same h]

theorem neukum_same {c c' : RunCfg} {d d' : RunData} (h : SameInUse c c' d d') (x : ℝ) :
    neukum c'.flux x = neukum c.flux x := by
  unfold neukum RunCfg.flux
  simp only [h.neukum_pf_new]
  cases hn : c.neukum_pf_new with
  | true => simp only [h.neukum_pf_a_2001 hn, if_true]
  | false => simp only [h.neukum_pf_a_1983 hn, Bool.false_eq_true, if_false]

/-- Craters of a regime, when the split between asteroids and comets is the same. -/
theorem craterPop_same {c c' : RunCfg} {d d' : RunData} (h : SameInUse c c' d d')
    (hsplit : ∀ n, cometSplit c'.flux n = cometSplit c.flux n) (time : List ℝ) (r : String) :
    craterPop c'.flux time r = craterPop c.flux time r := by
  have hn : ∀ a b t, numCraters c'.flux a b t = numCraters c.flux a b t := by
    intro a b t
    unfold numCraters
    rw [neukum_same h, neukum_same h]
    change (_ - _) * c'.sa_moon * c'.timestep * _ = _
    rw [h.sa_moon, h.timestep]
    rfl
  have hr : c'.flux.impact_regimes = c.flux.impact_regimes := h.impact_regimes
  unfold craterPop
  simp only [hr, hsplit, hn]

theorem asteroid_impact_same (g : Gen σ) {c c' : RunCfg} {d d' : RunData} (h : SameInUse c c' d d')
    (hoff : c.impact_ice_comets = false) (hast : c.is_comet = false) (df : CraterTable) (time : List ℝ)
    (s : σ) : impactIce g c' df time s = impactIce g c df time s := by
  have hoff' : c'.impact_ice_comets = false := h.impact_ice_comets.trans hoff
  have hast' : c'.is_comet = false := h.is_comet.trans hast
  have hsplit : ∀ n, cometSplit c'.flux n = cometSplit c.flux n := by
    intro n
    unfold cometSplit RunCfg.flux
    simp only [hoff, hoff', hast, hast', Bool.false_eq_true, if_false]
  have hm2w : ∀ m, mass2water c'.flux m = mass2water c.flux m := by
    intro m
    unfold mass2water RunCfg.flux
    simp only [hast, hast', Bool.false_eq_true, if_false, h.ctype_frac, h.ctype_hydrated, h.hydrated_wt_pct,
      h.impact_mass_retained]
  have hsc : c'.scale = c.scale := by
    unfold RunCfg.scale
    rw [h.impactor_density, h.target_density, h.grav_moon, h.impact_angle, h.simple2complex, h.complex2peakring]
  refine impactIce_same g c c' df time (thicknessOf_same h) ?_ ?_ ?_ (craterPop_same h hsplit time) ?_ ?_ ?_
    h.is_comet h.impact_ice_basins s
  · unfold iceMicrometeorites RunCfg.flux
    simp only [hast, hast', hoff, hoff', Bool.false_eq_true, if_false, h.mm_mass_rate, h.hydrated_wt_pct,
      h.impact_mass_retained, h.timestep]
  · have hb : ∀ a b t, impactorsBrown a b t c'.flux = impactorsBrown a b t c.flux := by
      intro a b t
      unfold impactorsBrown
      simp only [hsplit]
      change cometSplit c.flux (((10 : ℝ) ^ (c'.brown_c0 - c'.brown_d0 * _) - (10 : ℝ) ^ (c'.brown_c0 - c'.brown_d0 * _)) * t /
        c'.earth_moon_ratio) = _
      rw [h.brown_c0, h.brown_d0, h.earth_moon_ratio]
      rfl
    have h1 : c'.flux.impact_regimes = c.flux.impact_regimes := h.impact_regimes
    have h2 : c'.flux.timestep = c.flux.timestep := h.timestep
    have h3 : c'.flux.impactor_density = c.flux.impactor_density := h.impactor_density
    unfold smallImpactorIce smallImpactorPop iceSmallImpactors
    simp only [h1, h2, h3, hb, hm2w]
  · have h1 : c'.flux.toScaleCfg = c.flux.toScaleCfg := hsc
    have h2 : c'.flux.impact_speed_mean = c.flux.impact_speed_mean := h.impact_speed_mean
    have h3 : c'.flux.impactor_density = c.flux.impactor_density := h.impactor_density
    unfold smallCraterIce iceSmallCraters
    simp only [craterPop_same h hsplit time, hm2w]
    rw [h1, h2]
  · intro u
    unfold hydratedCraters hydProbCraters RunCfg.imp
    simp only [hast, hast', hoff, hoff', Bool.false_eq_true, if_false, h.ctype_frac, h.ctype_hydrated]
  · intro n s
    unfold impactorSpeeds
    rw [hast, hast']
    unfold asteroidSpeeds RunCfg.speed
    simp only [Bool.false_eq_true, if_false, h.escape_vel, h.impact_speed_mean, h.impact_speed_sd]
  · intro r x y
    unfold largeCraterIce
    rw [hsc, h.impactor_density, h.hydrated_wt_pct, h.mode, h.is_comet]

/-- With equal comet settings too. -/
theorem impact_same (g : Gen σ) {c c' : RunCfg} {d d' : RunData} (h : SameInUse c c' d d')
    (hc : SameComets c c') (df : CraterTable) (time : List ℝ) (s : σ) :
    impactIce g c' df time s = impactIce g c df time s := by
  have hsplit : ∀ n, cometSplit c'.flux n = cometSplit c.flux n := by
    intro n
    unfold cometSplit RunCfg.flux
    simp only [h.is_comet, h.impact_ice_comets, hc.comet_ast_frac]
  have hm2w : ∀ m, mass2water c'.flux m = mass2water c.flux m := by
    intro m
    unfold mass2water RunCfg.flux
    simp only [h.is_comet, h.ctype_frac, h.ctype_hydrated, h.hydrated_wt_pct,
      h.impact_mass_retained, hc.comet_hydrated_wt_pct, hc.comet_mass_retained]
  have hsc : c'.scale = c.scale := by
    unfold RunCfg.scale
    rw [h.impactor_density, h.target_density, h.grav_moon, h.impact_angle, h.simple2complex, h.complex2peakring]
  refine impactIce_same g c c' df time (thicknessOf_same h) ?_ ?_ ?_ (craterPop_same h hsplit time) ?_ ?_ ?_
    h.is_comet h.impact_ice_basins s
  · unfold iceMicrometeorites RunCfg.flux
    simp only [h.is_comet, h.impact_ice_comets, h.mm_mass_rate, h.hydrated_wt_pct,
      h.impact_mass_retained, h.timestep, hc.comet_hydrated_wt_pct, hc.comet_mass_retained]
  · have hb : ∀ a b t, impactorsBrown a b t c'.flux = impactorsBrown a b t c.flux := by
      intro a b t
      unfold impactorsBrown
      simp only [hsplit]
      change cometSplit c.flux (((10 : ℝ) ^ (c'.brown_c0 - c'.brown_d0 * _) - (10 : ℝ) ^ (c'.brown_c0 - c'.brown_d0 * _)) * t /
        c'.earth_moon_ratio) = _
      rw [h.brown_c0, h.brown_d0, h.earth_moon_ratio]
      rfl
    have h1 : c'.flux.impact_regimes = c.flux.impact_regimes := h.impact_regimes
    have h2 : c'.flux.timestep = c.flux.timestep := h.timestep
    have h3 : c'.flux.impactor_density = c.flux.impactor_density := h.impactor_density
    unfold smallImpactorIce smallImpactorPop iceSmallImpactors
    simp only [h1, h2, h3, hb, hm2w]
  · have h1 : c'.flux.toScaleCfg = c.flux.toScaleCfg := hsc
    have h2 : c'.flux.impact_speed_mean = c.flux.impact_speed_mean := h.impact_speed_mean
    unfold smallCraterIce iceSmallCraters
    simp only [craterPop_same h hsplit time, hm2w]
    rw [h1, h2]
  · intro u
    unfold hydratedCraters hydProbCraters RunCfg.imp
    simp only [h.is_comet, h.impact_ice_comets, hc.comet_ast_frac, h.ctype_frac, h.ctype_hydrated]
  · intro n s
    have hs : c'.speed = c.speed := by
      unfold RunCfg.speed
      rw [h.escape_vel, h.impact_speed_mean, h.impact_speed_sd, hc.comet_speed_min,
        hc.comet_speed_max, hc.jfc_speed_mean, hc.jfc_speed_sd, hc.lpc_speed_mean, hc.lpc_speed_sd]
    unfold impactorSpeeds
    rw [h.is_comet, hs, hc.jfc_frac, hc.lpc_frac]
  · intro r x y
    unfold largeCraterIce
    rw [hsc, h.impactor_density, h.hydrated_wt_pct, h.mode, h.is_comet]

theorem comet_inUse {c c' : RunCfg} {d d' : RunData} (h : SameInUse c c' d d') (hc : SameComets c c') :
    SameInUse c.comet c'.comet d d' :=
  { h with is_comet := rfl, hydrated_wt_pct := hc.comet_hydrated_wt_pct,
           impactor_density := hc.comet_density, impact_mass_retained := hc.comet_mass_retained }

theorem comet_sameComets {c c' : RunCfg} (hc : SameComets c c') : SameComets c.comet c'.comet := { hc with }

/-! ## The rest of a run -/

theorem solar_same {c c' : RunCfg} {d d' : RunData} (h : SameInUse c c' d d') (time : List ℝ) :
    solarWindIce c'.solar (readLuminosity d'.lum) time = solarWindIce c.solar (readLuminosity d.lum) time := by
  unfold solarWindIce
  change (if c'.solar_wind_ice then _ else _) = if c.solar_wind_ice then _ else _
  rw [h.solar_wind_ice]
  cases hon : c.solar_wind_ice with
  | false => rfl
  | true =>
    have hm : solarWindMass c'.solar (readLuminosity d'.lum) time = solarWindMass c.solar (readLuminosity d.lum) time := by
      unfold solarWindMass RunCfg.solar
      simp only [h.solar_wind_mode hon, h.faint_young_sun hon, h.timestep]
      cases hf : c.faint_young_sun with
      | false => rfl
      | true => rw [h.lum hon hf]
    simp only [if_true, hm]
    have ht : ∀ m, iceThickness c'.solar.toIceCfg m = iceThickness c.solar.toIceCfg m := iceThickness_same h
    simp only [ht]

theorem volc_same {c c' : RunCfg} {d d' : RunData} (h : SameInUse c c' d d') (rint : ℝ → ℝ) (tol ts : ℝ)
    (time : List ℝ) :
    volcanicIce c'.volc_mode c'.ice c'.head rint d'.sortNk tol ts time d'.nk =
      volcanicIce c.volc_mode c.ice c.head rint d.sortNk tol ts time d.nk := by
  unfold volcanicIce
  simp only [iceThickness_same h, h.volc_mode]
  by_cases h1 : c.volc_mode = "NK"
  · rw [if_pos h1, if_pos h1, h.nk h1, h.sortNk h1]
  · rw [if_neg h1, if_neg h1]
    by_cases h2 : c.volc_mode = "Head"
    · rw [if_pos h2, if_pos h2]
      have hh : c'.head = c.head := by
        unfold RunCfg.head
        rw [h.volc_early h2, h.volc_late h2, h.volc_early_pct h2, h.volc_late_pct h2, h.volc_total_vol h2,
          h.volc_ice_ppm h2, h.volc_magma_density h2, h.timestep]
      rw [hh]
    · rw [if_neg h2, if_neg h2]

theorem cols_same {c c' : RunCfg} {d d' : RunData} (h : SameInUse c c' d d') (polar volc : List ℝ) :
    iceColsTime c'.cols d'.hop polar volc = iceColsTime c.cols d.hop polar volc := by
  have h1 : volcShare c'.cols polar volc = volcShare c.cols polar volc := by
    unfold volcShare RunCfg.cols RunCfg.ice
    simp only [h.use_volc_dep_effcy, h.ballistic_hop_effcy]
    cases hu : c.use_volc_dep_effcy with
    | false => rfl
    | true => rw [h.volc_dep_effcy hu]
  have h2 : ∀ p, trapRows c'.cols d'.hop p = trapRows c.cols d.hop p := by
    intro p
    unfold trapRows RunCfg.cols RunCfg.ice
    simp only [h.ballistic_hop_moores, h.ballistic_hop_effcy, h.coldtrap_names]
    cases hu : c.ballistic_hop_moores with
    | false => rfl
    | true => rw [h.hop hu]
  unfold iceColsTime
  simp only [h1, h2]

theorem bsed_same {c c' : RunCfg} {d d' : RunData} (h : SameInUse c c' d d') (time : List ℝ) (df : CraterTable)
    (dists : List (List (Option ℝ))) (thick : List (List ℝ)) :
    bsedArrays c' d' time df dists thick = bsedArrays c d time df dists thick := by
  unfold bsedArrays
  simp only [h.coldtrap_names]
  cases hon : c.ballistic_sed with
  | false =>
    have e : ∀ (x : RunCfg), x.ballistic_sed = false → ∀ tbl mr ages isb traps,
        bsedDepth x.bsed tbl mr time ages isb traps =
        .ok (traps.map (fun _ => (time.map (fun _ => 0), time.map (fun _ => 0)))) := by
      intro x hx tbl mr ages isb traps
      unfold bsedDepth
      exact if_pos (by change ¬ x.ballistic_sed = true; rw [hx]; exact Bool.false_ne_true)
    rw [e c hon, e c' (h.ballistic_sed.trans hon)]
  | true =>
    have hb : ∀ isb, ejectaTemp c'.bsed isb = ejectaTemp c.bsed isb := by
      intro isb
      unfold ejectaTemp RunCfg.bsed
      simp only [h.basin_ejecta_temp_warm hon, h.polar_ejecta_temp_init hon]
      cases hw : c.basin_ejecta_temp_warm with
      | true => simp only [if_true, h.basin_ejecta_temp_init_warm hon hw]
      | false => simp only [Bool.false_eq_true, if_false, h.basin_ejecta_temp_init_cold hon hw]
    have hc : ∀ time ages thick r m, bsedColumn c'.bsed time ages thick r m = bsedColumn c.bsed time ages thick r m := by
      intro time ages thick r m
      unfold bsedColumn RunCfg.bsed
      simp only [h.ballistic_sed_frac_lost hon]
    have e : ∀ mr ages isb traps, bsedDepth c'.bsed d'.melt mr time ages isb traps =
        bsedDepth c.bsed d.melt mr time ages isb traps := by
      intro mr ages isb traps
      have hs : c'.bsed.ballistic_sed = c.bsed.ballistic_sed := h.ballistic_sed
      unfold bsedDepth
      simp only [hs, hb, hc, h.melt hon]
    rw [e, h.mixing_ratio_petro hon, h.mixing_ratio_a hon, h.mixing_ratio_b hon]

theorem overturn_same {c c' : RunCfg} {d d' : RunData} (h : SameInUse c c' d d') (time : List ℝ) :
    overturnDepth c'.overturn time = overturnDepth c.overturn time := by
  unfold overturnDepth
  cases hon : c.impact_gardening_costello with
  | true =>
    have he : overturnCostello c'.overturn = overturnCostello c.overturn := by
      funext t
      unfold overturnCostello RunCfg.overturn
      simp only [h.overturn_depth_present hon, h.overturn_ancient_slope hon, h.overturn_ancient_t0 hon, h.timestep]
    have h1 : c.overturn.impact_gardening_costello = true := hon
    have h2 : c'.overturn.impact_gardening_costello = true := h.impact_gardening_costello.trans hon
    rw [h1, h2, he, if_pos rfl, if_pos rfl]
  | false =>
    have h1 : c.overturn.impact_gardening_costello = false := hon
    have h2 : c'.overturn.impact_gardening_costello = false := h.impact_gardening_costello.trans hon
    rw [h1, h2]
    unfold RunCfg.overturn
    simp only [h.ice_erosion_rate hon, h.timestep, Bool.false_eq_true, if_false]

theorem format_same {c c' : RunCfg} {d d' : RunData} (h : SameInUse c c' d d') (time : List ℝ) (df : CraterTable)
    (cols : PyDict (StratCol ℝ)) : formatCsv c' d' time df cols = formatCsv c d time df cols := by
  have hl : ∀ ages acc, formatLoop c' time cols ages acc = formatLoop c time cols ages acc := by
    intro ages
    induction ages with
    | nil => intro acc; rfl
    | cons a rest ih =>
      intro acc
      simp only [formatLoop, ih, h.thickness_min, h.strat_after_age]
  unfold formatCsv
  simp only [hl, h.coldtrap_names, h.setOrder]

theorem ej_inUse {c c' : RunCfg} {d d' : RunData} (h : SameInUse c c' d d') : c'.ej = c.ej := by
  unfold RunCfg.ej
  rw [h.simple2complex, h.complex2peakring, h.rad_moon, h.grav_moon, h.impact_angle, h.ej_thickness_exp,
    h.ej_threshold, h.basin_ej_threshold]

theorem crater_list_same (g : Gen σ) {c c' : RunCfg} {d d' : RunData} (h : SameInUse c c' d d')
    (hicy : ∀ u, icyBasins c'.imp u = icyBasins c.imp u) (s : σ) :
    craterBasinList g c' d' s = craterBasinList g c d s := by
  unfold craterBasinList
  simp only [h.craters, h.basins, hicy, h.sortAges, h.timestep]

end MoonPIES
