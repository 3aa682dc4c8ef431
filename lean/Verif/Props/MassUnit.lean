import Verif.Lemmas.MassUnit
import Verif.Props.Main

/-!
# C143: only ratios of masses matter
-/

namespace MoonPIES

open Spec

variable {σ : Type} {k : ℝ}

/-- **C143** the ice delivered by impacts and volcanism, as thickness in every cold trap, does not depend on the unit of
mass. -/
theorem C143_delivered (hk : k ≠ 0) (g : Gen σ) (c : RunCfg) (d : RunData) (hs : c.solar_wind_ice = false)
    (df : CraterTable) (time : List ℝ) (s : σ) : iceCols g (inMassUnits k c) d df time s = iceCols g c d df time s := by
  have hp : polarIce g (inMassUnits k c) (readLuminosity d.lum) df time s =
      polarIce g c (readLuminosity d.lum) df time s := by
    unfold polarIce impactIceComet
    rw [mass_impact hk]
    simp only [show (inMassUnits k c).comet = inMassUnits k c.comet from rfl, mass_impact hk]
    have h1 : ∀ c : RunCfg, c.solar_wind_ice = false → ∀ lum, solarWindIce c.solar lum time =
        .ok (time.map (fun _ => 0)) := by
      intro c h lum
      unfold solarWindIce
      have : c.solar.solar_wind_ice = false := h
      rw [this]
      rfl
    rw [h1 (inMassUnits k c) hs, h1 c hs]
    rfl
  unfold iceCols
  rw [hp, show (inMassUnits k c).volc_mode = c.volc_mode from rfl, mass_volc hk]
  rfl

/-- **C143** measuring all masses in another unit leaves a run without solar wind as it is, results and errors.  So only
ratios of densities and supplies matter. -/
theorem C143_run (hk : k ≠ 0) (g : Gen σ) (c : RunCfg) (d : RunData) (hs : c.solar_wind_ice = false) :
    runMain g (inMassUnits k c) d = runMain g c d := by
  have hi : ∀ time df thick s, initStratCols g (inMassUnits k c) d time df thick s =
      initStratCols g c d time df thick s := by
    intro time df thick s
    unfold initStratCols
    simp only [C143_delivered hk g c d hs]
    rfl
  unfold runMain setup
  simp only [hi, mass_format]
  rfl

/-- **C143** the solar wind is the exception: its supply is written in kilograms, so its ice thins as the unit shrinks. -/
theorem C143_solar (c : RunCfg) (lum : List (ℝ × ℝ)) (time : List ℝ) :
    solarWindIce (inMassUnits k c).solar lum time = (solarWindIce c.solar lum time).map (scaleArr k⁻¹) := by
  unfold solarWindIce
  rw [show (inMassUnits k c).solar.solar_wind_ice = c.solar.solar_wind_ice from rfl]
  split
  · rw [show solarWindMass (inMassUnits k c).solar lum time = solarWindMass c.solar lum time from rfl]
    cases solarWindMass c.solar lum time with
    | error e => rfl
    | ok mass =>
      refine mapM_scale _ _ k⁻¹ (fun m => ?_) mass
      unfold iceThickness
      change (do
        let area ← if c.ice_species = "H2O" then _ else if c.ice_species = "CO2" then _ else _
        Except.ok (m * c.ballistic_hop_effcy / (k * c.ice_density) / area)) = Except.map _ (do
        let area ← if c.ice_species = "H2O" then _ else if c.ice_species = "CO2" then _ else _
        Except.ok (m * c.ballistic_hop_effcy / c.ice_density / area))
      have e : ∀ a : ℝ, m * c.ballistic_hop_effcy / (k * c.ice_density) / a =
          k⁻¹ * (m * c.ballistic_hop_effcy / c.ice_density / a) := by
        intro a
        simp only [div_eq_mul_inv, mul_inv]
        ring
      simp only [e]
      split
      · rfl
      · split <;> rfl
  · change Except.ok _ = Except.ok _
    unfold scaleArr
    simp

/-- **C143** so a run with solar wind does depend on the unit: without the faint young Sun every timestep of the default
configuration gets ice, and half as much in units half as large. -/
theorem C143_solar_depends (seed : Int) (lum : List (ℝ × ℝ)) : ∃ x : ℝ, 0 < x ∧
    solarWindIce { RunCfg.default seed with faint_young_sun := false }.solar lum [0] = .ok [x] ∧
    solarWindIce (inMassUnits 2 { RunCfg.default seed with faint_young_sun := false }).solar lum [0] = .ok [x / 2] := by
  have h : ∃ x : ℝ, 0 < x ∧
      solarWindIce { RunCfg.default seed with faint_young_sun := false }.solar lum [0] = .ok [x] := by
    refine ⟨1 * (2 * (1 / 1000) * 60 * 60 * 24 * 365 * (RunCfg.default seed).timestep) *
      (RunCfg.default seed).ballistic_hop_effcy / (RunCfg.default seed).ice_density /
      (RunCfg.default seed).coldtrap_area_H2O, ?_, ?_⟩
    · simp only [RunCfg.default]
      norm_num
    · unfold solarWindIce
      rw [if_pos (show ({ RunCfg.default seed with faint_young_sun := false } : RunCfg).solar.solar_wind_ice = true
        from rfl)]
      have hm : solarWindMass ({ RunCfg.default seed with faint_young_sun := false } : RunCfg).solar lum [0] =
          .ok [1 * (2 * (1 / 1000) * 60 * 60 * 24 * 365 * (RunCfg.default seed).timestep)] := by
        unfold solarWindMass
        have hr : solarRate (K := ℝ) ({ RunCfg.default seed with faint_young_sun := false } : RunCfg).solar.solar_wind_mode
            = .ok (2 * (1 / 1000)) := by
          unfold solarRate
          refine if_pos ?_
          change "Benna".toLower = "benna"
          decide +kernel
        rw [hr]
        rfl
      rw [hm]
      rfl
  obtain ⟨x, h0, hx⟩ := h
  refine ⟨x, h0, hx, ?_⟩
  rw [C143_solar, hx]
  change Except.ok [2⁻¹ * x] = _
  rw [inv_mul_eq_div]

/-- In grams instead of kilograms: the default run without solar wind, with the shipped files, gives the same twelve
tables. -/
example (seed : Int) : ∃ out,
    runMain constGen (inMassUnits 1000 { RunCfg.default seed with solar_wind_ice := false })
      (shippedData [] sortDesc id id) = .ok out := by
  rw [C143_run (by norm_num) _ _ _ rfl]
  refine C72_returns constGen constGen_lawful _ _ { default_physical seed with } ?_
    { default_runnable [] sortDesc id id seed with }
  exact { default_data [] sortDesc id id sortDesc_spec seed with solar := fun h => by cases h }

end MoonPIES
