import Verif.Props.Volcanic
import Verif.Spec.MassUnit
import Verif.Lemmas.Supply
import Verif.Lemmas.Main

/-!
# Lemmas on the unit of mass
-/

namespace MoonPIES

open Spec

variable {σ : Type} {k : ℝ}

theorem mass_micro (c : RunCfg) (time : List ℝ) :
    iceMicrometeorites (inMassUnits k c).flux time = scaleArr k (iceMicrometeorites c.flux time) := by
  unfold iceMicrometeorites scaleArr
  rw [List.map_map]
  congr 1
  funext t
  simp only [Function.comp, ← mul_assoc]
  rfl

theorem mass_water (c : RunCfg) (m : ℝ) : mass2water (inMassUnits k c).flux (k * m) = k * mass2water c.flux m := by
  unfold mass2water
  change (if c.is_comet = true then c.comet_hydrated_wt_pct * (k * m) * c.comet_mass_retained else
    c.ctype_frac * c.ctype_hydrated * c.hydrated_wt_pct * (k * m) * c.impact_mass_retained) = k *
    (if c.is_comet = true then c.comet_hydrated_wt_pct * m * c.comet_mass_retained else
    c.ctype_frac * c.ctype_hydrated * c.hydrated_wt_pct * m * c.impact_mass_retained)
  split_ifs <;> ring

theorem zip_mass_left (k : ℝ) (f : ℝ → ℝ) : ∀ ds row : List ℝ,
    (List.zipWith (· * ·) (ds.map (fun d => k * f d)) row).sum = k * (List.zipWith (· * ·) (ds.map f) row).sum
  | [], _ => by simp
  | _ :: _, [] => by simp
  | d :: ds, x :: row => by
    have := zip_mass_left k f ds row
    simp only [List.map_cons, List.zipWith_cons_cons, List.sum_cons, this]
    ring

theorem zip_mass_right (k : ℝ) (f : ℝ → ℝ) : ∀ row ds : List ℝ,
    (List.zipWith (· * ·) row (ds.map (fun d => k * f d))).sum = k * (List.zipWith (· * ·) row (ds.map f)).sum
  | [], _ => by simp
  | _ :: _, [] => by simp
  | x :: row, d :: ds => by
    have := zip_mass_right k f row ds
    simp only [List.map_cons, List.zipWith_cons_cons, List.sum_cons, this]
    ring

theorem mass_impactors (c : RunCfg) (time : List ℝ) : smallImpactorIce (inMassUnits k c).flux time =
    (smallImpactorIce c.flux time).map (scaleArr k) := by
  unfold smallImpactorIce
  rw [show smallImpactorPop (inMassUnits k c).flux time = smallImpactorPop c.flux time from rfl]
  cases smallImpactorPop c.flux time with
  | error e => rfl
  | ok p =>
    change Except.ok (iceSmallImpactors (inMassUnits k c).flux p.1 p.2) =
      Except.ok (scaleArr k (iceSmallImpactors c.flux p.1 p.2))
    congr 1
    unfold iceSmallImpactors scaleArr
    simp only [List.map_map]
    congr 1
    funext row
    simp only [Function.comp_def]
    rw [← mass_water, ← zip_mass_right]
    congr 4
    funext d
    change _ * (k * c.impactor_density) = k * (_ * c.impactor_density)
    ring

theorem mass_prieur (hk : k ≠ 0) (v rhoI rhoT g L : ℝ) :
    prieurDiam v (k * rhoI) (k * rhoT) g L = prieurDiam v rhoI rhoT g L := by
  unfold prieurDiam
  simp only []
  rw [mul_assoc k, mul_div_mul_left _ _ hk]

theorem mass_prieur_len (hk : k ≠ 0) (ts : List ℝ) (v rhoI rhoT g : ℝ) :
    diam2lenPrieur ts v (k * rhoI) (k * rhoT) g = diam2lenPrieur ts v rhoI rhoT g := by
  unfold diam2lenPrieur prieurTable
  simp only [mass_prieur hk]

theorem mass_collins (hk : k ≠ 0) (t v rhoI rhoT g theta : ℝ) :
    diam2lenCollins t v (k * rhoI) (k * rhoT) g theta = diam2lenCollins t v rhoI rhoT g theta := by
  unfold diam2lenCollins
  rw [mul_div_mul_left _ _ hk]

theorem mass_johnson (hk : k ≠ 0) (d v rhoI rhoT g theta s : ℝ) :
    diam2lenJohnson d v (k * rhoI) (k * rhoT) g theta s = diam2lenJohnson d v rhoI rhoT g theta s := by
  unfold diam2lenJohnson
  rw [mul_div_mul_left _ _ hk]

theorem mass_len (hk : k ≠ 0) (c : RunCfg) (d v : ℝ) (r : String) :
    diam2lenOne (inMassUnits k c).scale d v r = diam2lenOne c.scale d v r := by
  unfold diam2lenOne
  change (if r = "c" then (diam2lenPrieur [_] v (k * c.impactor_density) (k * c.target_density) _).bind _ else
    if r = "d" then Except.ok (diam2lenCollins _ v (k * c.impactor_density) (k * c.target_density) _ _) else
    if r = "e" ∨ r = "f" then
      Except.ok (diam2lenJohnson _ v (k * c.impactor_density) (k * c.target_density) _ _ _) else _) = _
  rw [mass_prieur_len hk, mass_collins hk, mass_johnson hk]
  rfl

theorem mass_lens (hk : k ≠ 0) (c : RunCfg) (ds : List ℝ) (v : ℝ) (r : String) :
    diam2len (inMassUnits k c).flux.toScaleCfg ds v r = diam2len c.flux.toScaleCfg ds v r := by
  unfold diam2len
  rw [show (inMassUnits k c).flux.toScaleCfg = (inMassUnits k c).scale from rfl,
    show c.flux.toScaleCfg = c.scale from rfl]
  simp only [mass_len hk]
  change (if r = "c" then diam2lenPrieur _ v (k * c.impactor_density) (k * c.target_density) _ else _) = _
  rw [mass_prieur_len hk]
  rfl

theorem mass_small (hk : k ≠ 0) (c : RunCfg) (time : List ℝ) : smallCraterIce (inMassUnits k c).flux time =
    (smallCraterIce c.flux time).map (scaleArr k) := by
  unfold smallCraterIce
  rw [show craterPop (inMassUnits k c).flux time "c" = craterPop c.flux time "c" from rfl]
  cases craterPop c.flux time "c" with
  | error e => rfl
  | ok p =>
    change iceSmallCraters (inMassUnits k c).flux p.1 _ "c" = (iceSmallCraters c.flux p.1 _ "c").map _
    unfold iceSmallCraters
    rw [mass_lens hk, show (inMassUnits k c).flux.impact_speed_mean = c.flux.impact_speed_mean from rfl]
    cases diam2len c.flux.toScaleCfg p.1 c.flux.impact_speed_mean "c" with
    | error e => rfl
    | ok lens =>
      change Except.ok _ = Except.ok _
      congr 1
      unfold scaleArr
      simp only [List.map_map]
      congr 1
      funext row
      simp only [Function.comp_def]
      rw [← mass_water, ← zip_mass_left]
      congr 4
      funext d
      change _ * (k * c.impactor_density) = k * (_ * c.impactor_density)
      ring

theorem mass_large (hk : k ≠ 0) (c : RunCfg) (r : String) (d v : ℝ) : largeCraterIce (inMassUnits k c) r d v =
    (largeCraterIce c r d v).map (fun x => k * x) := by
  unfold largeCraterIce
  rw [mass_len hk]
  cases diam2lenOne c.scale d v r with
  | error e => rfl
  | ok len =>
    change Except.ok (diam2vol len * (k * c.impactor_density) * c.hydrated_wt_pct *
      iceRetention c.mode c.is_comet v) = Except.ok (k *
        (diam2vol len * c.impactor_density * c.hydrated_wt_pct * iceRetention c.mode c.is_comet v))
    congr 1
    ring

theorem mass_larges (hk : k ≠ 0) (c : RunCfg) (ds vs : List ℝ) (r : String) :
    largeCratersIce (inMassUnits k c) ds vs r = (largeCratersIce c ds vs r).map (fun x => k * x) := by
  unfold largeCratersIce
  split
  · rw [mapM_scale _ _ k (fun p : ℝ × ℝ => mass_large hk c r p.1 p.2)]
    cases (ds.zip vs).mapM (fun p => largeCraterIce c r p.1 p.2) with
    | error e => rfl
    | ok ms =>
      change Except.ok _ = Except.ok _
      rw [sum_scale]
  · rfl

theorem mass_loop (hk : k ≠ 0) (g : Gen σ) (c : RunCfg) (r : String) (ds ps : List ℝ) :
    ∀ (ns : List Int) (s : σ), stochLoop g (inMassUnits k c) r ds ps ns s = scaleRes k (stochLoop g c r ds ps ns s)
  | [], s => rfl
  | n :: ns, s => by
    unfold stochLoop
    cases choiceOf g ds n ps s with
    | error e => rfl
    | ok p =>
      simp only [bind, Except.bind]
      rw [show (inMassUnits k c).imp = c.imp from rfl, show ∀ m s, impactorSpeeds g (inMassUnits k c) m s =
        impactorSpeeds g c m s from fun _ _ => rfl]
      cases impactorSpeeds g c (maskSelect p.1 (hydratedCraters c.imp
          (g.random p.1.length p.2).1)).length (g.random p.1.length p.2).2 with
      | error e => rfl
      | ok v =>
        simp only []
        rw [mass_larges hk]
        cases largeCratersIce c (maskSelect p.1 (hydratedCraters c.imp
          (g.random p.1.length p.2).1)) v.1 r with
        | error e => rfl
        | ok m =>
          simp only [Except.map]
          rw [mass_loop hk g c r ds ps ns]
          cases stochLoop g c r ds ps ns v.2 with
          | error e => rfl
          | ok q => rfl

theorem mass_stoch (hk : k ≠ 0) (g : Gen σ) (c : RunCfg) (time : List ℝ) (r : String) (s : σ) :
    iceStochastic g (inMassUnits k c) time r s = scaleRes k (iceStochastic g c time r s) := by
  unfold iceStochastic
  rw [show craterPop (inMassUnits k c).flux time r = craterPop c.flux time r from rfl]
  cases craterPop c.flux time r with
  | error e => rfl
  | ok p => exact mass_loop hk g c r p.1 p.2.2 _ _

theorem mass_basins (hk : k ≠ 0) (g : Gen σ) (c : RunCfg) (df : CraterTable) (time : List ℝ) (s : σ) :
    iceBasins g (inMassUnits k c) df time s = scaleRes k (iceBasins g c df time s) := by
  unfold iceBasins
  simp only [bind, Except.bind]
  rw [show icyRows (inMassUnits k c) df = icyRows c df from rfl, show ∀ m s, impactorSpeeds g (inMassUnits k c) m s =
    impactorSpeeds g c m s from fun _ _ => rfl]
  cases impactorSpeeds g c (icyRows c df).length s with
  | error e => rfl
  | ok v =>
    simp only []
    rw [mapM_scale _ _ k (fun p : ℝ × ℝ => mass_large hk c "f" p.1 p.2)]
    cases (((icyRows c df).map (fun r => 2 * r.rest.crater.rad)).zip v.1).mapM
        (fun p => largeCraterIce c "f" p.1 p.2) with
    | error e => rfl
    | ok ms =>
      simp only [Except.map]
      rw [ages_scale]
      cases ages2time RunCfg.rtol time (((icyRows c df).map (·.age)).zip ms) (· + ·) (0 : ℝ) with
      | error e => rfl
      | ok o => rfl

theorem mass_thick_one (hk : k ≠ 0) (c : RunCfg) (m : ℝ) :
    iceThickness (inMassUnits k c).ice (k * m) = iceThickness c.ice m := by
  unfold iceThickness
  change (do
    let area ← if c.ice_species = "H2O" then _ else if c.ice_species = "CO2" then _ else _
    Except.ok (k * m * c.ballistic_hop_effcy / (k * c.ice_density) / area)) = _
  rw [mul_assoc k, mul_div_mul_left _ _ hk]
  rfl

theorem mass_thick (hk : k ≠ 0) (c : RunCfg) (l : List ℝ) :
    thicknessOf (inMassUnits k c) (scaleArr k l) = thicknessOf c l := by
  unfold thicknessOf scaleArr
  rw [List.mapM_map]
  congr 1
  funext m
  exact mass_thick_one hk c m

theorem mass_nonBasin (hk : k ≠ 0) (g : Gen σ) (c : RunCfg) (time : List ℝ) (s : σ) :
    nonBasinIce g (inMassUnits k c) time s = nonBasinIce g c time s := by
  unfold nonBasinIce
  rw [mass_micro, mass_thick hk, mass_impactors, mass_small hk, mass_stoch hk]
  simp only [bind, Except.bind]
  cases thicknessOf c (iceMicrometeorites c.flux time) with
  | error e => rfl
  | ok a =>
    cases smallImpactorIce c.flux time with
    | error e => rfl
    | ok m =>
      simp only [Except.map]
      rw [mass_thick hk]
      cases thicknessOf c m with
      | error e => rfl
      | ok a =>
        cases smallCraterIce c.flux time with
        | error e => rfl
        | ok m =>
          simp only []
          rw [mass_thick hk]
          cases thicknessOf c m with
          | error e => rfl
          | ok a =>
            cases iceStochastic g c time "d" s with
            | error e => rfl
            | ok p =>
              simp only [scaleRes]
              rw [mass_thick hk, mass_stoch hk]
              cases thicknessOf c p.1 with
              | error e => rfl
              | ok a =>
                simp only []
                cases iceStochastic g c time "e" p.2 with
                | error e => rfl
                | ok p =>
                  simp only [scaleRes]
                  rw [mass_thick hk]

theorem mass_impact (hk : k ≠ 0) (g : Gen σ) (c : RunCfg) (df : CraterTable) (time : List ℝ) (s : σ) :
    impactIce g (inMassUnits k c) df time s = impactIce g c df time s := by
  unfold impactIce
  rw [mass_nonBasin hk]
  simp only [bind, Except.bind]
  cases nonBasinIce g c time s with
  | error e => rfl
  | ok p =>
    simp only []
    rw [mass_basins hk]
    cases iceBasins g c df time p.2 with
    | error e => rfl
    | ok q =>
      simp only [scaleRes]
      rw [mass_thick hk]
      rfl

theorem mass_head (c : RunCfg) (time : List ℝ) :
    volcanicHead (inMassUnits k c).head time = scaleArr k (volcanicHead c.head time) := by
  unfold volcanicHead scaleArr
  simp only [List.map_map]
  apply List.map_congr_left
  intro t _
  change (if t ≤ c.volc_late.1 ∧ t > c.volc_late.2 then
      c.volc_total_vol * (k * c.volc_magma_density) * c.volc_ice_ppm * (1 / 1000000) * c.volc_late_pct * c.timestep
    else if t ≤ c.volc_early.1 ∧ t > c.volc_early.2 then
      c.volc_total_vol * (k * c.volc_magma_density) * c.volc_ice_ppm * (1 / 1000000) * c.volc_early_pct * c.timestep
    else 0) = k * (if t ≤ c.volc_late.1 ∧ t > c.volc_late.2 then
      c.volc_total_vol * c.volc_magma_density * c.volc_ice_ppm * (1 / 1000000) * c.volc_late_pct * c.timestep
    else if t ≤ c.volc_early.1 ∧ t > c.volc_early.2 then
      c.volc_total_vol * c.volc_magma_density * c.volc_ice_ppm * (1 / 1000000) * c.volc_early_pct * c.timestep
    else 0)
  split_ifs <;> ring

theorem mass_volc (hk : k ≠ 0) (c : RunCfg) (rint : ℝ → ℝ) (sort : List (ℝ × ℝ) → List (ℝ × ℝ)) (tol ts : ℝ)
    (time : List ℝ) (rows : List (ℝ × ℝ)) :
    volcanicIce c.volc_mode (inMassUnits k c).ice (inMassUnits k c).head rint sort tol ts time rows =
      volcanicIce c.volc_mode c.ice c.head rint sort tol ts time rows := by
  by_cases h1 : c.volc_mode = "NK"
  · rw [h1, C46_refuted, C46_refuted]
  · by_cases h2 : c.volc_mode = "Head"
    · rw [(C46_mode _ _ _ _ _ _ _ _ _).1 h2, (C46_mode _ _ _ _ _ _ _ _ _).1 h2, mass_head]
      exact mass_thick hk c _
    · rw [(C46_mode _ _ _ _ _ _ _ _ _).2 h1 h2, (C46_mode _ _ _ _ _ _ _ _ _).2 h1 h2]

theorem mass_format (c : RunCfg) (d : RunData) (time : List ℝ) (df : CraterTable) (cols : PyDict (StratCol ℝ)) :
    formatCsv (inMassUnits k c) d time df cols = formatCsv c d time df cols := by
  have h : ∀ ages acc, formatLoop (inMassUnits k c) time cols ages acc = formatLoop c time cols ages acc := by
    intro ages
    induction ages with
    | nil => intro acc; rfl
    | cons a rest ih =>
      intro acc
      simp only [formatLoop, ih]
      rfl
  unfold formatCsv
  simp only [h]
  rfl

end MoonPIES
