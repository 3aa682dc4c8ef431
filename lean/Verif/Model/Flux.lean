import Verif.Model.Scaling
import Verif.Model.Ice
import Mathlib.Analysis.SpecialFunctions.Log.Base

/-!
# Impact flux and continuous delivery

`/repo/moonpies/moonpies.py` 1310-1347, 1784-1835, 1897-1920, 2055-2184, over ℝ.  Diameters of
the regimes are positive here (`log10` of 0 is not modelled).
-/

namespace MoonPIES

/-- `impact_flux` (moonpies.py:2180-2184). -/
noncomputable def impactFlux (time : ℝ) : ℝ :=
  let time := time * 1e-9
  let flux := 6.93 * 5.44e-14 * Real.exp (6.93 * time) + 8.38e-4
  flux * 1e-9

/-- `impact_flux_scaling` (moonpies.py:2163-2177). -/
noncomputable def fluxScaling (time : ℝ) : ℝ := impactFlux time / impactFlux 0

/-- The configuration fields read by the continuous delivery functions (config.py:115-245);
`neukum_a` is the coefficient tuple chosen by `neukum_pf_new`. -/
structure FluxCfg extends ScaleCfg where
  mm_mass_rate : ℝ
  is_comet : Bool
  impact_ice_comets : Bool
  comet_hydrated_wt_pct : ℝ
  comet_mass_retained : ℝ
  hydrated_wt_pct : ℝ
  impact_mass_retained : ℝ
  ctype_frac : ℝ
  ctype_hydrated : ℝ
  comet_ast_frac : ℝ
  timestep : ℝ
  brown_c0 : ℝ
  brown_d0 : ℝ
  earth_moon_ratio : ℝ
  sa_moon : ℝ
  impact_speed_mean : ℝ
  neukum_pf_new : Bool
  neukum_pf_a_2001 : List ℝ
  neukum_pf_a_1983 : List ℝ
  impact_regimes : PyDict (ℝ × ℝ × ℝ × ℝ)

/-- `ice_micrometeorites` (moonpies.py:1784-1808) at each time. -/
noncomputable def iceMicrometeorites (cfg : FluxCfg) (time : List ℝ) : List ℝ :=
  time.map (fun t =>
    let massT := cfg.mm_mass_rate * fluxScaling t
    let iceRet := if cfg.is_comet then cfg.comet_hydrated_wt_pct * cfg.comet_mass_retained
      else if cfg.impact_ice_comets then 0
      else cfg.hydrated_wt_pct * cfg.impact_mass_retained
    massT * iceRet * cfg.timestep)

/-- `impactor_mass2water` (moonpies.py:1897-1920). -/
noncomputable def mass2water (cfg : FluxCfg) (m : ℝ) : ℝ :=
  if cfg.is_comet then cfg.comet_hydrated_wt_pct * m * cfg.comet_mass_retained
  else cfg.ctype_frac * cfg.ctype_hydrated * cfg.hydrated_wt_pct * m * cfg.impact_mass_retained

/-- The comet/asteroid split of a count (moonpies.py:2087-2090, 2102-2105). -/
noncomputable def cometSplit (cfg : FluxCfg) (n : ℝ) : ℝ :=
  if cfg.is_comet then n * cfg.comet_ast_frac
  else if cfg.impact_ice_comets then n * (1 - cfg.comet_ast_frac) else n

/-- `get_impactors_brown` (moonpies.py:2077-2091). -/
noncomputable def impactorsBrown (mindiam maxdiam timestep : ℝ) (cfg : FluxCfg) : ℝ :=
  let gtLow := (10 : ℝ) ^ (cfg.brown_c0 - cfg.brown_d0 * Real.logb 10 mindiam)
  let gtHigh := (10 : ℝ) ^ (cfg.brown_c0 - cfg.brown_d0 * Real.logb 10 maxdiam)
  let earth := gtLow - gtHigh
  let moon := earth * timestep / cfg.earth_moon_ratio
  cometSplit cfg moon

/-- `get_small_impactor_pop` (moonpies.py:2123-2136): diameters and, per time, the number
of impactors of each diameter. -/
noncomputable def smallImpactorPop (cfg : FluxCfg) (time : List ℝ) :
    Except PyErr (List ℝ × List (List ℝ)) := do
  let (mind, maxd, step, slope) ← PyDict.get cfg.impact_regimes "b"
  let (diams, prob) ← craterSfd mind maxd step slope
  let n := impactorsBrown mind maxd cfg.timestep cfg
  .ok (diams, time.map (fun t => prob.map (fun p => n * fluxScaling t * p)))

/-- `ice_small_impactors` (moonpies.py:1811-1819). -/
noncomputable def iceSmallImpactors (cfg : FluxCfg) (diams : List ℝ) (pop : List (List ℝ)) :
    List ℝ :=
  let masses := diams.map (fun d => diam2vol d * cfg.impactor_density)
  pop.map (fun row => mass2water cfg (List.zipWith (· * ·) row masses).sum)

/-- Mass part of `get_small_impactor_ice` (moonpies.py:1644-1655). -/
noncomputable def smallImpactorIce (cfg : FluxCfg) (time : List ℝ) : Except PyErr (List ℝ) := do
  let (diams, pop) ← smallImpactorPop cfg time
  .ok (iceSmallImpactors cfg diams pop)

/-- `neukum` (moonpies.py:2055-2074). -/
noncomputable def neukum (cfg : FluxCfg) (diam : ℝ) : ℝ :=
  let a := if cfg.neukum_pf_new then cfg.neukum_pf_a_2001 else cfg.neukum_pf_a_1983
  let diam := diam * 1e-3
  let n := (10 : ℝ) ^ (a.mapIdx (fun j c => c * Real.logb 10 diam ^ j)).sum
  n * 1e-6 * 1e-9

/-- `num_craters_chronology` (moonpies.py:2109-2120). -/
noncomputable def numCraters (cfg : FluxCfg) (mindiam maxdiam time : ℝ) : ℝ :=
  let fmax := neukum cfg mindiam
  let fmin := neukum cfg maxdiam
  let count := (fmax - fmin) * cfg.sa_moon * cfg.timestep
  count * fluxScaling time

/-- `get_crater_pop` (moonpies.py:2094-2106): diameters, crater count per time,
probabilities. -/
noncomputable def craterPop (cfg : FluxCfg) (time : List ℝ) (regime : String) :
    Except PyErr (List ℝ × List ℝ × List ℝ) := do
  let (mind, maxd, step, slope) ← PyDict.get cfg.impact_regimes regime
  let (diams, prob) ← craterSfd mind maxd step slope
  .ok (diams, time.map (fun t => cometSplit cfg (numCraters cfg mind maxd t)), prob)

/-- `ice_small_craters` (moonpies.py:1822-1835). -/
noncomputable def iceSmallCraters (cfg : FluxCfg) (diams : List ℝ) (counts : List (List ℝ))
    (regime : String) : Except PyErr (List ℝ) := do
  let lens ← diam2len cfg.toScaleCfg diams cfg.impact_speed_mean regime
  let masses := lens.map (fun d => diam2vol d * cfg.impactor_density)
  .ok (counts.map (fun row => mass2water cfg (List.zipWith (· * ·) masses row).sum))

/-- Mass part of `get_small_simple_crater_ice` (moonpies.py:1658-1670). -/
noncomputable def smallCraterIce (cfg : FluxCfg) (time : List ℝ) : Except PyErr (List ℝ) := do
  let (diams, ns, prob) ← craterPop cfg time "c"
  iceSmallCraters cfg diams (ns.map (fun n => prob.map (fun p => n * p))) "c"

/-! ## Mixing ratio -/

/-- `get_mixing_ratio_oberbeck` (moonpies.py:1310-1347) of one distance, NaN as `none`. -/
noncomputable def mixingRatio (petro : Bool) (a b : ℝ) : Option ℝ → Option ℝ
  | none => none
  | some d =>
    let dist := d * 1e-3
    let mr := a * dist ^ b
    if petro then some (if mr > 5 then 0.5 * mr + 2.5 else mr) else some mr

end MoonPIES
