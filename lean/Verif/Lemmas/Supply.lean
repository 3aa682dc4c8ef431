import Verif.Spec.Supply
import Verif.Lemmas.Impact

/-!
# Impact ice is linear in hydration and retained mass
-/

namespace MoonPIES

open Spec

variable {σ : Type}

/-- All scaling options one, and options that impact ice does not depend on fixed. -/
noncomputable def RunCfg.unit (c : RunCfg) : RunCfg :=
  { c with
    mm_mass_rate := 1
    comet_hydrated_wt_pct := 1
    comet_mass_retained := 1
    hydrated_wt_pct := 1
    impact_mass_retained := 1
    ballistic_sed := false
    ballistic_sed_frac_lost := 0
    overturn_depth_present := 0
    overturn_ancient_slope := 0
    ice_erosion_rate := 0
    solar_wind_ice := false
    volc_total_vol := 0
    volc_ice_ppm := 0
    volc_dep_effcy := 0
    thickness_min := 0
    strat_after_age := false }

/-- Scale of small impactors and small craters. -/
noncomputable def wFactor (c : RunCfg) : ℝ :=
  if c.is_comet then c.comet_hydrated_wt_pct * c.comet_mass_retained
  else c.hydrated_wt_pct * c.impact_mass_retained

theorem scaleArr_scaleArr (a b : ℝ) (l : List ℝ) : scaleArr a (scaleArr b l) = scaleArr (a * b) l := by
  unfold scaleArr
  rw [List.map_map]
  congr 1
  funext x
  simp only [Function.comp, mul_assoc]

theorem scaleArr_addArr (k : ℝ) : ∀ a b : List ℝ,
    scaleArr k (addArr a b) = addArr (scaleArr k a) (scaleArr k b)
  | [], _ => rfl
  | _ :: _, [] => rfl
  | x :: a, y :: b => by
    have := scaleArr_addArr k a b
    unfold scaleArr addArr at this ⊢
    simp only [List.zipWith_cons_cons, List.map_cons, this, mul_add]

theorem micro_unit (c : RunCfg) (time : List ℝ) : iceMicrometeorites c.flux time =
    scaleArr (c.mm_mass_rate * wFactor c) (iceMicrometeorites c.unit.flux time) := by
  unfold iceMicrometeorites scaleArr wFactor
  rw [List.map_map]
  congr 1
  funext t
  change c.mm_mass_rate * fluxScaling t * (if c.is_comet = true then _ else if c.impact_ice_comets = true then _ else _) * c.timestep =
    _ * (1 * fluxScaling t * (if c.is_comet = true then _ else if c.impact_ice_comets = true then _ else _) * c.timestep)
  change c.mm_mass_rate * fluxScaling t * (if c.is_comet = true then c.comet_hydrated_wt_pct * c.comet_mass_retained else if c.impact_ice_comets = true then 0 else c.hydrated_wt_pct * c.impact_mass_retained) * c.timestep =
    _ * (1 * fluxScaling t * (if c.is_comet = true then 1 * 1 else if c.impact_ice_comets = true then 0 else 1 * 1) * c.timestep)
  split_ifs <;> ring

theorem mass2water_unit (c : RunCfg) (m : ℝ) :
    mass2water c.flux m = wFactor c * mass2water c.unit.flux m := by
  unfold mass2water wFactor
  change (if c.is_comet = true then c.comet_hydrated_wt_pct * m * c.comet_mass_retained else
    c.ctype_frac * c.ctype_hydrated * c.hydrated_wt_pct * m * c.impact_mass_retained) = _ *
    (if c.is_comet = true then 1 * m * 1 else c.ctype_frac * c.ctype_hydrated * 1 * m * 1)
  split_ifs <;> ring

theorem smallImpactor_unit (c : RunCfg) (time : List ℝ) : smallImpactorIce c.flux time =
    (smallImpactorIce c.unit.flux time).map (scaleArr (wFactor c)) := by
  unfold smallImpactorIce
  rw [show smallImpactorPop c.unit.flux time = smallImpactorPop c.flux time from rfl]
  cases smallImpactorPop c.flux time with
  | error e => rfl
  | ok p =>
    change Except.ok (iceSmallImpactors c.flux p.1 p.2) =
      Except.ok (scaleArr (wFactor c) (iceSmallImpactors c.unit.flux p.1 p.2))
    congr 1
    unfold iceSmallImpactors scaleArr
    simp only [List.map_map]
    congr 1
    funext row
    exact mass2water_unit c _

theorem smallCrater_unit (c : RunCfg) (time : List ℝ) : smallCraterIce c.flux time =
    (smallCraterIce c.unit.flux time).map (scaleArr (wFactor c)) := by
  unfold smallCraterIce
  rw [show craterPop c.unit.flux time "c" = craterPop c.flux time "c" from rfl]
  cases craterPop c.flux time "c" with
  | error e => rfl
  | ok p =>
    change iceSmallCraters c.flux p.1 _ "c" = (iceSmallCraters c.unit.flux p.1 _ "c").map _
    unfold iceSmallCraters
    rw [show c.unit.flux.toScaleCfg = c.flux.toScaleCfg from rfl,
      show c.unit.flux.impact_speed_mean = c.flux.impact_speed_mean from rfl]
    cases diam2len c.flux.toScaleCfg p.1 c.flux.impact_speed_mean "c" with
    | error e => rfl
    | ok lens =>
      change Except.ok _ = Except.ok _
      congr 1
      unfold scaleArr
      simp only [List.map_map]
      congr 1
      funext row
      exact mass2water_unit c _

theorem largeCrater_unit (c : RunCfg) (r : String) (d v : ℝ) : largeCraterIce c r d v =
    (largeCraterIce c.unit r d v).map (fun x => c.hydrated_wt_pct * x) := by
  unfold largeCraterIce
  rw [show c.unit.scale = c.scale from rfl]
  cases diam2lenOne c.scale d v r with
  | error e => rfl
  | ok len =>
    change Except.ok (diam2vol len * c.impactor_density * c.hydrated_wt_pct *
      iceRetention c.mode c.is_comet v) = Except.ok (c.hydrated_wt_pct *
        (diam2vol len * c.impactor_density * 1 * iceRetention c.mode c.is_comet v))
    congr 1
    ring

theorem mapM_scale {α : Type} (f h : α → Except PyErr ℝ) (k : ℝ)
    (hf : ∀ x, f x = (h x).map (fun y => k * y)) : ∀ l : List α,
      l.mapM f = (l.mapM h).map (scaleArr k)
  | [] => rfl
  | x :: l => by
    rw [List.mapM_cons, List.mapM_cons, hf x, mapM_scale f h k hf l]
    cases h x with
    | error e => rfl
    | ok y =>
      cases l.mapM h with
      | error e => rfl
      | ok ys => rfl

theorem sum_scale (k : ℝ) (l : List ℝ) : (scaleArr k l).sum = k * l.sum := by
  unfold scaleArr
  rw [List.sum_map_mul_left, List.map_id']

theorem largeCraters_unit (c : RunCfg) (ds vs : List ℝ) (r : String) :
    largeCratersIce c ds vs r =
      (largeCratersIce c.unit ds vs r).map (fun x => c.hydrated_wt_pct * x) := by
  unfold largeCratersIce
  split
  · rw [mapM_scale _ _ c.hydrated_wt_pct (fun p : ℝ × ℝ => largeCrater_unit c r p.1 p.2)]
    cases (ds.zip vs).mapM (fun p => largeCraterIce c.unit r p.1 p.2) with
    | error e => rfl
    | ok ms =>
      change Except.ok _ = Except.ok _
      rw [sum_scale]
  · rfl

theorem stochLoop_unit (g : Gen σ) (c : RunCfg) (r : String) (ds ps : List ℝ) :
    ∀ (ns : List Int) (s : σ), stochLoop g c r ds ps ns s =
      scaleRes c.hydrated_wt_pct (stochLoop g c.unit r ds ps ns s)
  | [], s => rfl
  | n :: ns, s => by
    unfold stochLoop
    cases choiceOf g ds n ps s with
    | error e => rfl
    | ok p =>
      simp only [bind, Except.bind]
      rw [show c.unit.imp = c.imp from rfl, show ∀ k s, impactorSpeeds g c.unit k s =
        impactorSpeeds g c k s from fun _ _ => rfl]
      cases impactorSpeeds g c (maskSelect p.1 (hydratedCraters c.imp
          (g.random p.1.length p.2).1)).length (g.random p.1.length p.2).2 with
      | error e => rfl
      | ok v =>
        simp only []
        rw [largeCraters_unit]
        cases largeCratersIce c.unit (maskSelect p.1 (hydratedCraters c.imp
          (g.random p.1.length p.2).1)) v.1 r with
        | error e => rfl
        | ok m =>
          simp only [Except.map]
          rw [stochLoop_unit g c r ds ps ns]
          cases stochLoop g c.unit r ds ps ns v.2 with
          | error e => rfl
          | ok q => rfl

theorem iceStochastic_unit (g : Gen σ) (c : RunCfg) (time : List ℝ) (r : String) (s : σ) :
    iceStochastic g c time r s = scaleRes c.hydrated_wt_pct (iceStochastic g c.unit time r s) := by
  unfold iceStochastic
  rw [show craterPop c.unit.flux time r = craterPop c.flux time r from rfl]
  cases craterPop c.flux time r with
  | error e => rfl
  | ok p => exact stochLoop_unit g c r p.1 p.2.2 _ _

theorem foldl_scale (k : ℝ) : ∀ (l : List ℝ) (a : ℝ),
    (scaleArr k l).foldl (· + ·) (k * a) = k * l.foldl (· + ·) a
  | [], _ => rfl
  | x :: l, a => by
    have := foldl_scale k l (a + x)
    rw [mul_add] at this
    exact this

open Classical in
theorem ages_scale (tol : ℝ) (time ages ms : List ℝ) (k : ℝ) :
    ages2time tol time (ages.zip (scaleArr k ms)) (· + ·) (0 : ℝ) =
      (ages2time tol time (ages.zip ms) (· + ·) (0 : ℝ)).map (scaleArr k) := by
  by_cases hne : time = []
  · subst hne; rfl
  · obtain ⟨o, o1, o2, o3⟩ := C15_nearest_placement tol time hne (ages.zip ms) (· + ·) (0 : ℝ)
    obtain ⟨o', o1', o2', o3'⟩ :=
      C15_nearest_placement tol time hne (ages.zip (scaleArr k ms)) (· + ·) (0 : ℝ)
    rw [o1, o1']
    change Except.ok o' = Except.ok (scaleArr k o)
    congr 1
    apply List.ext_getElem?
    intro i
    by_cases hi : i < time.length
    · rw [o3' i hi]
      unfold scaleArr
      rw [List.getElem?_map, o3 i hi]
      change some _ = some _
      congr 1
      beta_reduce
      rw [← foldl_scale, mul_zero]
      congr 1
      unfold scaleArr
      rw [List.zip_map_right, List.filter_map, List.map_map, List.map_map]
      rfl
    · rw [List.getElem?_eq_none (by omega), List.getElem?_eq_none (by
        unfold scaleArr; rw [List.length_map]; omega)]

theorem iceBasins_unit (g : Gen σ) (c : RunCfg) (df : CraterTable) (time : List ℝ) (s : σ) :
    iceBasins g c df time s = scaleRes c.hydrated_wt_pct (iceBasins g c.unit df time s) := by
  unfold iceBasins
  simp only [bind, Except.bind]
  rw [show icyRows c.unit df = icyRows c df from rfl, show ∀ k s, impactorSpeeds g c.unit k s =
    impactorSpeeds g c k s from fun _ _ => rfl]
  cases impactorSpeeds g c (icyRows c df).length s with
  | error e => rfl
  | ok v =>
    simp only []
    rw [mapM_scale _ _ c.hydrated_wt_pct (fun p : ℝ × ℝ => largeCrater_unit c "f" p.1 p.2)]
    cases (((icyRows c df).map (fun r => 2 * r.rest.crater.rad)).zip v.1).mapM
        (fun p => largeCraterIce c.unit "f" p.1 p.2) with
    | error e => rfl
    | ok ms =>
      simp only [Except.map]
      rw [ages_scale]
      cases ages2time RunCfg.rtol time (((icyRows c df).map (·.age)).zip ms) (· + ·) (0 : ℝ) with
      | error e => rfl
      | ok o => rfl

theorem thickness_scale (c : RunCfg) (k : ℝ) (l : List ℝ) :
    thicknessOf c (scaleArr k l) = (thicknessOf c l).map (scaleArr k) := by
  unfold thicknessOf
  have h : (scaleArr k l).mapM (fun m => iceThickness c.ice m) =
      l.mapM (fun m => iceThickness c.ice (k * m)) := by
    unfold scaleArr
    rw [List.mapM_map]
    rfl
  rw [h]
  apply mapM_scale
  intro m
  unfold iceThickness
  split
  · change Except.ok _ = Except.ok _
    congr 1; ring
  · split
    · change Except.ok _ = Except.ok _
      congr 1; ring
    · rfl

end MoonPIES
