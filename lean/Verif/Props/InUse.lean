import Verif.Lemmas.InUse
import Verif.Props.Needs

/-!
# C146: settings of what is switched off do nothing
-/

namespace MoonPIES

open Spec

variable {σ : Type}

/-- C146: a run is decided by the settings in use, including whether and how it raises. -/
theorem C146_run (g : Gen σ) (c c' : RunCfg) (d d' : RunData) (h : SameInUse c c' d d')
    (hc : SameComets c c') : runMain g c' d' = runMain g c d := by
  have hicy : ∀ u, icyBasins c'.imp u = icyBasins c.imp u := by
    have hi : c'.imp = c.imp := by
      unfold RunCfg.imp
      rw [h.is_comet, h.impact_ice_comets, h.impact_ice_basins, hc.comet_ast_frac, h.ctype_frac, h.ctype_hydrated]
    intro u
    rw [hi]
  have hpolar : ∀ df time s, polarIce g c' (readLuminosity d'.lum) df time s =
      polarIce g c (readLuminosity d.lum) df time s := by
    intro df time s
    unfold polarIce impactIceComet
    simp only [impact_same g h hc, impact_same g (comet_inUse h hc) (comet_sameComets hc), h.impact_ice_comets,
      solar_same h]
  have hcols : ∀ df time s, iceCols g c' d' df time s = iceCols g c d df time s := by
    intro df time s
    unfold iceCols
    simp only [hpolar, volc_same h, cols_same h, h.timestep]
  have hsetup : setup g c' d' = setup g c d := by
    unfold setup thicknessMatrix initStratCols
    simp only [h.seed, h.timestart, h.timeend, h.timestep, crater_list_same g h hicy, ej_inUse h, h.coldtrap_names,
      h.thickness_min, hcols, bsed_same h, overturn_same h]
  unfold runMain
  simp only [hsetup, h.impact_gardening_costello, h.coldtrap_names, format_same h]

/-- The default run without solar wind, sedimentation and the efficiency of volcanic deposition:
among the free settings are the names of modes, the area for another species, the other production
function and two files. -/
example (seed : Int) : SameInUse
    { RunCfg.default seed with solar_wind_ice := false, ballistic_sed := false, use_volc_dep_effcy := false }
    { RunCfg.default seed with
        solar_wind_ice := false, ballistic_sed := false, use_volc_dep_effcy := false, solar_wind_mode := "?",
        volc_dep_effcy := -1, ice_erosion_rate := 7, coldtrap_area_CO2 := 0, neukum_pf_a_1983 := [],
        mixing_ratio_a := 0, basin_ejecta_temp_init_warm := 9, ejecta_basins := false }
    (shippedData [] sortDesc id id) { shippedData [(1, 2)] sortDesc id id with lum := [] } := by
  constructor <;> first
    | exact rfl
    | (intro h; first
        | rfl
        | cases h
        | exact absurd (show "H2O" = "CO2" from h) (by decide)
        | exact absurd (show "Head" = "NK" from h) (by decide))

/-- **C146** with comets switched off, two runs that complete agree whatever the settings of
comets. -/
theorem C146_comets (g : Gen σ) (c c' : RunCfg) (d d' : RunData) (h : SameInUse c c' d d')
    (hoff : c.impact_ice_comets = false) (hast : c.is_comet = false) (out out' : CsvOut)
    (hr : runMain g c d = .ok out) (hr' : runMain g c' d' = .ok out') : out' = out := by
  have hoff' : c'.impact_ice_comets = false := h.impact_ice_comets.trans hoff
  have hicy : ∀ u, icyBasins c'.imp u = icyBasins c.imp u := by
    intro u
    unfold icyBasins hydratedBasins hydProbBasins RunCfg.imp
    simp only [hoff, hoff', h.impact_ice_basins, h.ctype_frac, h.ctype_hydrated, Bool.false_eq_true, if_false]
  have hpolar : ∀ df time s p p', polarIce g c (readLuminosity d.lum) df time s = .ok p →
      polarIce g c' (readLuminosity d'.lum) df time s = .ok p' → p'.1 = p.1 := by
    intro df time s p p' e e'
    unfold polarIce at e e'
    rw [asteroid_impact_same g h hoff hast] at e'
    obtain ⟨a, ea, e⟩ := bind_ok_inv e
    obtain ⟨a', ea', e'⟩ := bind_ok_inv e'
    rw [ea] at ea'
    injection ea' with ea'
    subst ea'
    obtain ⟨q, -, e⟩ := bind_ok_inv e
    obtain ⟨q', -, e'⟩ := bind_ok_inv e'
    obtain ⟨w, ew, e⟩ := bind_ok_inv e
    obtain ⟨w', ew', e'⟩ := bind_ok_inv e'
    rw [solar_same h, ew] at ew'
    injection ew' with ew'
    subst ew'
    rw [hoff] at e
    rw [hoff'] at e'
    injection e with e
    injection e' with e'
    rw [← e, ← e']
    rfl
  have hcols : ∀ df time s p p', iceCols g c d df time s = .ok p → iceCols g c' d' df time s = .ok p' →
      p'.1 = p.1 := by
    intro df time s p p' e e'
    unfold iceCols at e e'
    obtain ⟨a, ea, e⟩ := bind_ok_inv e
    obtain ⟨a', ea', e'⟩ := bind_ok_inv e'
    have hp := hpolar _ _ _ _ _ ea ea'
    obtain ⟨v, ev, e⟩ := bind_ok_inv e
    obtain ⟨v', ev', e'⟩ := bind_ok_inv e'
    rw [volc_same h, h.timestep, ev] at ev'
    injection ev' with ev'
    subst ev'
    obtain ⟨r, er, e⟩ := bind_ok_inv e
    obtain ⟨r', er', e'⟩ := bind_ok_inv e'
    rw [cols_same h, hp, er] at er'
    injection er' with er'
    subst er'
    injection e with e
    injection e' with e'
    rw [← e, ← e']
  rw [C139_run_from] at hr hr'
  obtain ⟨time, ht, hr⟩ := bind_ok_inv hr
  obtain ⟨time', ht', hr'⟩ := bind_ok_inv hr'
  rw [h.timestart, h.timeend, h.timestep, ht] at ht'
  injection ht' with ht'
  subst ht'
  obtain ⟨p, hl, hr⟩ := bind_ok_inv hr
  obtain ⟨p', hl', hr'⟩ := bind_ok_inv hr'
  rw [crater_list_same g h hicy, h.seed, hl] at hl'
  injection hl' with hl'
  subst hl'
  unfold runFrom at hr hr'
  obtain ⟨dists, hd, hr⟩ := bind_ok_inv hr
  obtain ⟨dists', hd', hr'⟩ := bind_ok_inv hr'
  rw [ej_inUse h, h.coldtrap_names, hd] at hd'
  injection hd' with hd'
  subst hd'
  obtain ⟨thick, hth, hr⟩ := bind_ok_inv hr
  obtain ⟨thick', hth', hr'⟩ := bind_ok_inv hr'
  unfold thicknessMatrix at hth hth'
  rw [ej_inUse h, hth] at hth'
  injection hth' with hth'
  subst hth'
  obtain ⟨cs, hi, hr⟩ := bind_ok_inv hr
  obtain ⟨cs', hi', hr'⟩ := bind_ok_inv hr'
  have hi := liftPy_ok_inv hi
  have hi' := liftPy_ok_inv hi'
  have hcs : cs'.1 = cs.1 := by
    unfold initStratCols at hi hi'
    obtain ⟨ej, e1, hi⟩ := bind_ok_inv hi
    obtain ⟨ej', e1', hi'⟩ := bind_ok_inv hi'
    rw [h.coldtrap_names, h.thickness_min, e1] at e1'
    injection e1' with e1'
    subst e1'
    obtain ⟨ice, e2, hi⟩ := bind_ok_inv hi
    obtain ⟨ice', e2', hi'⟩ := bind_ok_inv hi'
    have e3 := hcols _ _ _ _ _ e2 e2'
    obtain ⟨cc, e4, hi⟩ := bind_ok_inv hi
    obtain ⟨cc', e4', hi'⟩ := bind_ok_inv hi'
    rw [e3, h.coldtrap_names, e4] at e4'
    injection e4' with e4'
    subst e4'
    injection hi with hi
    injection hi' with hi'
    rw [← hi, ← hi']
  obtain ⟨bb, hb, hr⟩ := bind_ok_inv hr
  obtain ⟨bb', hb', hr'⟩ := bind_ok_inv hr'
  rw [bsed_same h, hb] at hb'
  injection hb' with hb'
  subst hb'
  obtain ⟨cols, hu, hr⟩ := bind_ok_inv hr
  obtain ⟨cols', hu', hr'⟩ := bind_ok_inv hr'
  rw [h.impact_gardening_costello, h.coldtrap_names, hcs, overturn_same h, hu] at hu'
  injection hu' with hu'
  subst hu'
  rw [format_same h, hr] at hr'
  injection hr' with hr'
  exact hr'.symm

/-- Two complete runs with comets off and different comets. -/
example : ∃ out, runMain constGen { RunCfg.default 1 with impact_ice_comets := false } (shippedData [] sortDesc id id) =
      .ok out ∧
    runMain constGen { RunCfg.default 1 with impact_ice_comets := false, comet_hydrated_wt_pct := 1, comet_ast_frac := 1 }
      (shippedData [] sortDesc id id) = .ok out := by
  have h1 : ∃ out, runMain constGen { RunCfg.default 1 with impact_ice_comets := false }
      (shippedData [] sortDesc id id) = .ok out :=
    C72_returns constGen constGen_lawful _ _ { default_physical 1 with }
      { default_data [] sortDesc id id sortDesc_spec 1 with } { default_runnable [] sortDesc id id 1 with }
  have h2 : ∃ out, runMain constGen
      { RunCfg.default 1 with impact_ice_comets := false, comet_hydrated_wt_pct := 1, comet_ast_frac := 1 }
      (shippedData [] sortDesc id id) = .ok out :=
    C72_returns constGen constGen_lawful _ _ { default_physical 1 with chw := zero_le_one, caf := zero_le_one, caf1 := le_refl _ }
      { default_data [] sortDesc id id sortDesc_spec 1 with } { default_runnable [] sortDesc id id 1 with }
  obtain ⟨out, h1⟩ := h1
  obtain ⟨out', h2⟩ := h2
  have e : out' = out := by
    refine C146_comets _ _ _ _ _ ?_ rfl rfl _ _ h1 h2
    constructor <;> first | exact rfl | exact fun _ => rfl | exact fun _ _ => rfl
  exact ⟨out, h1, e ▸ h2⟩

/-- Basins draw comet speeds in every run. -/
theorem comet_sd_needs (g : Gen σ) (c : RunCfg) (h0 : c.jfc_speed_sd = 0) (df : CraterTable) (time : List ℝ)
    (s : σ) (p : List ℝ × σ) : impactIceComet g c df time s ≠ .ok p := by
  intro h
  unfold impactIceComet impactIce at h
  obtain ⟨a, -, h⟩ := bind_ok_inv h
  obtain ⟨b, h, -⟩ := bind_ok_inv h
  unfold iceBasins at h
  obtain ⟨sp, h, -⟩ := bind_ok_inv h
  unfold impactorSpeeds at h
  rw [if_pos (by rfl)] at h
  unfold cometSpeeds at h
  rw [if_pos (by exact h0)] at h
  cases h

/-- **C146 is false of whether a run completes**: with comets off, a standard deviation of comet
speeds that no ice depends on still stops every run (moonpies.py:890-893 computes the ice of
comets before looking at the switch). -/
theorem C146_off_refuted :
    (∀ (σ : Type) (g : Gen σ) (c : RunCfg) (d : RunData), c.impact_ice_comets = false → c.jfc_speed_sd = 0 →
      ∀ out, runMain g c d ≠ .ok out) ∧
    ∃ (c : RunCfg) (d : RunData), c.impact_ice_comets = false ∧ c.is_comet = false ∧
      (∃ out, runMain constGen c d = .ok out) ∧
      ∀ out, runMain constGen { c with jfc_speed_sd := 0 } d ≠ .ok out := by
  have key : ∀ (σ : Type) (g : Gen σ) (c : RunCfg) (d : RunData), c.jfc_speed_sd = 0 →
      ∀ out, runMain g c d ≠ .ok out := by
    intro σ g c d h0 out h
    rw [C139_run_from] at h
    obtain ⟨time, ht, h⟩ := bind_ok_inv h
    obtain ⟨p, hl, h⟩ := bind_ok_inv h
    unfold runFrom at h
    obtain ⟨dists, hd, h⟩ := bind_ok_inv h
    obtain ⟨thick, -, h⟩ := bind_ok_inv h
    obtain ⟨cs, hi, h⟩ := bind_ok_inv h
    have hi := liftPy_ok_inv hi
    unfold initStratCols at hi
    obtain ⟨ej, -, hi⟩ := bind_ok_inv hi
    obtain ⟨ice, hi, -⟩ := bind_ok_inv hi
    unfold iceCols at hi
    obtain ⟨polar, hpol, hi⟩ := bind_ok_inv hi
    unfold polarIce at hpol
    obtain ⟨a, -, hpol⟩ := bind_ok_inv hpol
    obtain ⟨b, hb, -⟩ := bind_ok_inv hpol
    exact comet_sd_needs g c h0 _ _ _ _ hb
  refine ⟨fun σ g c d _ h0 => key σ g c d h0, { RunCfg.default 1 with impact_ice_comets := false },
    shippedData [] sortDesc id id, rfl, rfl, ?_, key _ _ _ _ rfl⟩
  refine C72_returns constGen constGen_lawful _ _ { default_physical 1 with } ?_
    { default_runnable [] sortDesc id id 1 with }
  exact { default_data [] sortDesc id id sortDesc_spec 1 with }

end MoonPIES
