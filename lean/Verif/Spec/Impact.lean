import Verif.Model.Main
import Verif.Props.Rounding

/-!
# Specification vocabulary for the random generator and for configurations
-/

namespace MoonPIES

/-- What is assumed of the numpy and scipy samplers: arrays of the requested size with values in
the support of the distribution.  Nothing is assumed about the states. -/
structure LawfulGen {σ : Type} (g : Gen σ) : Prop where
  random_length : ∀ n s, (g.random n s).1.length = n
  random_range : ∀ n s, ∀ x ∈ (g.random n s).1, 0 ≤ x ∧ x < 1
  choice_length : ∀ l n p s, ValidProbs l.length p → (g.choice l n p s).1.length = n
  choice_mem : ∀ l n p s, ValidProbs l.length p → ∀ x ∈ (g.choice l n p s).1, x ∈ l
  choiceIdx_length : ∀ k n p s, ValidProbs k p → (g.choiceIdx k n p s).1.length = n
  choiceIdx_lt : ∀ k n p s, ValidProbs k p → ∀ i ∈ (g.choiceIdx k n p s).1, i < k
  truncnorm_length : ∀ a b n s, (∀ b', b = some b' → a < b') → (g.truncnorm a b n s).1.length = n
  truncnorm_range : ∀ a b n s, (∀ b', b = some b' → a < b') → ∀ z ∈ (g.truncnorm a b n s).1,
    a ≤ z ∧ ∀ b', b = some b' → z ≤ b'
  each_length : ∀ l s, (∀ p ∈ l, p.1 < p.2) → (g.truncnormEach l s).1.length = l.length
  each_range : ∀ l s, (∀ p ∈ l, p.1 < p.2) → ∀ (i : Nat) p z, l[i]? = some p →
    (g.truncnormEach l s).1[i]? = some z → p.1 ≤ z ∧ z ≤ p.2

/-- A diameter range of `cfg.impact_regimes` that can be sampled: positive diameters and at least
one step. -/
def RegimeOK (r : Except PyErr (ℝ × ℝ × ℝ × ℝ)) (fits : ℝ → ℝ → Prop) : Prop :=
  ∃ mind maxd step slope, r = .ok (mind, maxd, step, slope) ∧ 0 < mind ∧ 0 < step ∧
    step ≤ maxd - mind ∧ fits mind maxd

/-- Physically sensible parameters: no negative mass, fraction or speed, standard deviations,
densities, areas and gravity positive, regimes that can be sampled and in which craters are not
more frequent when larger. -/
structure PhysicalCfg (c : RunCfg) : Prop where
  area : (c.ice_species = "H2O" ∧ 0 < c.coldtrap_area_H2O) ∨
    (c.ice_species = "CO2" ∧ 0 < c.coldtrap_area_CO2)
  hop : 0 < c.ballistic_hop_effcy
  dens : 0 < c.ice_density
  ts : 0 < c.timestep
  mm : 0 ≤ c.mm_mass_rate
  chw : 0 ≤ c.comet_hydrated_wt_pct
  cmr : 0 ≤ c.comet_mass_retained
  hw : 0 ≤ c.hydrated_wt_pct
  imr : 0 ≤ c.impact_mass_retained
  cf : 0 ≤ c.ctype_frac
  ch : 0 ≤ c.ctype_hydrated
  caf : 0 ≤ c.comet_ast_frac
  caf1 : c.comet_ast_frac ≤ 1
  d0 : 0 ≤ c.brown_d0
  em : 0 ≤ c.earth_moon_ratio
  sa : 0 ≤ c.sa_moon
  rho : 0 < c.impactor_density
  crho : 0 < c.comet_density
  trho : 0 < c.target_density
  grav : 0 < c.grav_moon
  angle : 0 < c.impact_angle ∧ c.impact_angle < 180
  s2c : 0 < c.simple2complex ∧ c.simple2complex ≤ c.complex2peakring
  regB : RegimeOK (c.impact_regimes.get "b") (fun _ _ => True)
  regC : RegimeOK (c.impact_regimes.get "c")
    (fun lo hi => neukum c.flux hi ≤ neukum c.flux lo ∧ hi ≤ c.simple2complex)
  regD : RegimeOK (c.impact_regimes.get "d") (fun lo hi => neukum c.flux hi ≤ neukum c.flux lo)
  regE : RegimeOK (c.impact_regimes.get "e") (fun lo hi => neukum c.flux hi ≤ neukum c.flux lo)
  mean : 0 < c.impact_speed_mean
  sd : 0 < c.impact_speed_sd
  esc : 0 < c.escape_vel
  jsd : 0 < c.jfc_speed_sd
  lsd : 0 < c.lpc_speed_sd
  jmin : c.comet_speed_min < c.jfc_speed_mean
  lmin : c.comet_speed_min < c.lpc_speed_mean
  crange : 0 < c.comet_speed_min + c.comet_speed_max
  jfrac : 0 ≤ c.jfc_frac
  lfrac : 0 ≤ c.lpc_frac
  fracs : 0 < c.jfc_frac + c.lpc_frac

/-- The files and parameters of the solar wind, volcanic and hop modules are usable. -/
structure PhysicalData (c : RunCfg) (d : RunData) : Prop where
  solar : c.solar_wind_ice = true → (c.solar_wind_mode.toLower = "benna" ∨
    c.solar_wind_mode.toLower = "lucey-hurley") ∧
    (c.faint_young_sun = true → d.lum ≠ [] ∧ ∀ p ∈ d.lum, 0 ≤ p.2)
  volc : c.volc_mode = "Head" ∧ 0 ≤ c.volc_total_vol ∧ 0 ≤ c.volc_magma_density ∧
    0 ≤ c.volc_ice_ppm ∧ 0 ≤ c.volc_early_pct ∧ 0 ≤ c.volc_late_pct ∧ 0 ≤ c.volc_dep_effcy
  hops : c.ballistic_hop_moores = true → ∀ n ∈ c.coldtrap_names, ∃ x, d.hop.get n = .ok x ∧ 0 ≤ x
  basins : ∀ r ∈ d.basins, 0 < r.diam
  melt : ∀ m t v, d.melt.at m t = some v → 0 ≤ v ∧ v ≤ 1
  lost : 0 ≤ c.ballistic_sed_frac_lost ∧ c.ballistic_sed_frac_lost ≤ 1
  sorted : Spec.SortDesc d.sortAges

end MoonPIES
