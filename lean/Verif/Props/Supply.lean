import Verif.Lemmas.Supply
import Verif.Props.MainPhysical

/-!
# C116: impact ice is proportional to hydration

How the options that scale impact ice act on each way of delivery.
-/

namespace MoonPIES

open Spec

variable {σ : Type}

theorem nonBasin_scale (g : Gen σ) (c c' : RunCfg) (k : ℝ) (hi : c'.ice = c.ice)
    (hu : c'.unit = c.unit) (time : List ℝ) (s : σ)
    (hw : wFactor c' = k * wFactor c) (hm : c'.mm_mass_rate = c.mm_mass_rate)
    (hh : c'.hydrated_wt_pct = k * c.hydrated_wt_pct) :
    nonBasinIce g c' time s = scaleRes k (nonBasinIce g c time s) := by
  have hth : ∀ l, thicknessOf c' l = thicknessOf c l := by
    intro l; unfold thicknessOf; rw [hi]
  have e1 : iceMicrometeorites c'.flux time = scaleArr k (iceMicrometeorites c.flux time) := by
    rw [micro_unit, micro_unit c, hu, scaleArr_scaleArr, hm, hw]
    congr 1; ring
  have e2 : smallImpactorIce c'.flux time = (smallImpactorIce c.flux time).map (scaleArr k) := by
    rw [smallImpactor_unit, smallImpactor_unit c, hu, hw]
    cases smallImpactorIce c.unit.flux time with
    | error e => rfl
    | ok l => exact congrArg Except.ok (scaleArr_scaleArr _ _ _).symm
  have e3 : smallCraterIce c'.flux time = (smallCraterIce c.flux time).map (scaleArr k) := by
    rw [smallCrater_unit, smallCrater_unit c, hu, hw]
    cases smallCraterIce c.unit.flux time with
    | error e => rfl
    | ok l => exact congrArg Except.ok (scaleArr_scaleArr _ _ _).symm
  have e4 : ∀ r s, iceStochastic g c' time r s = scaleRes k (iceStochastic g c time r s) := by
    intro r s
    rw [iceStochastic_unit, iceStochastic_unit g c, hu, hh]
    cases iceStochastic g c.unit time r s with
    | error e => rfl
    | ok l => exact congrArg Except.ok (by rw [scaleArr_scaleArr])
  have z : time.map (fun _ => (0 : ℝ)) = scaleArr k (time.map (fun _ => (0 : ℝ))) := by
    unfold scaleArr
    rw [List.map_map]
    congr 1
    funext t
    simp
  unfold nonBasinIce
  simp only [bind, Except.bind, e1, e2, e3, e4, hth, thickness_scale]
  cases thicknessOf c (iceMicrometeorites c.flux time) with
  | error e => rfl
  | ok a1 =>
    simp only [Except.map]
    cases smallImpactorIce c.flux time with
    | error e => rfl
    | ok m2 =>
      simp only [thickness_scale]
      cases thicknessOf c m2 with
      | error e => rfl
      | ok a2 =>
        simp only [Except.map]
        cases smallCraterIce c.flux time with
        | error e => rfl
        | ok m3 =>
          simp only [thickness_scale]
          cases thicknessOf c m3 with
          | error e => rfl
          | ok a3 =>
            simp only [Except.map]
            cases iceStochastic g c time "d" s with
            | error e => rfl
            | ok p4 =>
              obtain ⟨m4, s4⟩ := p4
              simp only [scaleRes, thickness_scale]
              cases thicknessOf c m4 with
              | error e => rfl
              | ok a4 =>
                simp only [Except.map]
                cases iceStochastic g c time "e" s4 with
                | error e => rfl
                | ok p5 =>
                  obtain ⟨m5, s5⟩ := p5
                  simp only [thickness_scale]
                  cases thicknessOf c m5 with
                  | error e => rfl
                  | ok a5 =>
                    simp only [Except.map]
                    rw [scaleArr_addArr, scaleArr_addArr, scaleArr_addArr, scaleArr_addArr,
                      scaleArr_addArr, ← z]

theorem impactIce_scale (g : Gen σ) (c c' : RunCfg) (k : ℝ) (hi : c'.ice = c.ice)
    (hb : c'.impact_ice_basins = c.impact_ice_basins)
    (hu : c'.unit = c.unit) (df : CraterTable) (time : List ℝ) (s : σ)
    (hw : wFactor c' = k * wFactor c) (hm : c'.mm_mass_rate = c.mm_mass_rate)
    (hh : c'.hydrated_wt_pct = k * c.hydrated_wt_pct) :
    impactIce g c' df time s = scaleRes k (impactIce g c df time s) := by
  have hth : ∀ l, thicknessOf c' l = thicknessOf c l := by
    intro l; unfold thicknessOf; rw [hi]
  have e4 : ∀ s, iceBasins g c' df time s = scaleRes k (iceBasins g c df time s) := by
    intro s
    rw [iceBasins_unit, iceBasins_unit g c, hu, hh]
    cases iceBasins g c.unit df time s with
    | error e => rfl
    | ok l => exact congrArg Except.ok (by rw [scaleArr_scaleArr])
  unfold impactIce
  rw [nonBasin_scale g c c' k hi hu time s hw hm hh]
  simp only [bind, Except.bind, e4, hth]
  cases nonBasinIce g c time s with
  | error e => rfl
  | ok p =>
    obtain ⟨a, s1⟩ := p
    simp only [scaleRes]
    cases iceBasins g c df time s1 with
    | error e => rfl
    | ok q =>
      obtain ⟨m, s2⟩ := q
      simp only [scaleRes, thickness_scale]
      cases thicknessOf c m with
      | error e => rfl
      | ok b =>
        simp only [Except.map, hb]
        split
        · rw [scaleArr_addArr]
        · rfl

/-- **C116** The ice delivered by asteroids, with the same draws, is proportional to their
hydration: every entry is multiplied, and errors and the state of the generator do not change. -/
theorem C116_asteroids (g : Gen σ) (c : RunCfg) (hc : c.is_comet = false) (k : ℝ)
    (df : CraterTable) (time : List ℝ) (s : σ) :
    impactIce g { c with hydrated_wt_pct := k * c.hydrated_wt_pct } df time s =
      scaleRes k (impactIce g c df time s) := by
  refine impactIce_scale g c { c with hydrated_wt_pct := k * c.hydrated_wt_pct } k rfl rfl rfl
    df time s ?_ rfl rfl
  unfold wFactor
  simp only [hc]
  change k * c.hydrated_wt_pct * c.impact_mass_retained = k * (_ * _)
  ring

/-- **C116** The ice delivered by comets is proportional to the hydration of comets. -/
theorem C116_comets (g : Gen σ) (c : RunCfg) (k : ℝ) (df : CraterTable) (time : List ℝ) (s : σ) :
    impactIceComet g { c with comet_hydrated_wt_pct := k * c.comet_hydrated_wt_pct } df time s =
      scaleRes k (impactIceComet g c df time s) := by
  refine impactIce_scale g c.comet
    { c with comet_hydrated_wt_pct := k * c.comet_hydrated_wt_pct }.comet k rfl rfl rfl
    df time s ?_ rfl rfl
  unfold wFactor RunCfg.comet
  change k * c.comet_hydrated_wt_pct * c.comet_mass_retained = k * (_ * _)
  ring

/-- **C116** The retained fraction of impactor mass scales small impactors and small craters, and
has no effect on large craters and basins, which retain what their speed allows. -/
theorem C116_retained (g : Gen σ) (c : RunCfg) (hc : c.is_comet = false) (k : ℝ)
    (df : CraterTable) (time : List ℝ) (s : σ) (r : String) :
    smallImpactorIce { c with impact_mass_retained := k * c.impact_mass_retained }.flux time =
        (smallImpactorIce c.flux time).map (scaleArr k) ∧
      smallCraterIce { c with impact_mass_retained := k * c.impact_mass_retained }.flux time =
        (smallCraterIce c.flux time).map (scaleArr k) ∧
      iceStochastic g { c with impact_mass_retained := k * c.impact_mass_retained } time r s =
        iceStochastic g c time r s ∧
      iceBasins g { c with impact_mass_retained := k * c.impact_mass_retained } df time s =
        iceBasins g c df time s := by
  obtain ⟨c', hc'⟩ : ∃ t, t = { c with impact_mass_retained := k * c.impact_mass_retained } :=
    ⟨_, rfl⟩
  rw [← hc']
  have hu : c'.unit = c.unit := by rw [hc']; rfl
  have hh : c'.hydrated_wt_pct = c.hydrated_wt_pct := by rw [hc']
  have hw : wFactor c' = k * wFactor c := by
    rw [hc']
    unfold wFactor
    simp only [hc]
    change c.hydrated_wt_pct * (k * c.impact_mass_retained) = k * (_ * _)
    ring
  refine ⟨?_, ?_, ?_, ?_⟩
  · rw [smallImpactor_unit, smallImpactor_unit c, hu, hw]
    cases smallImpactorIce c.unit.flux time with
    | error e => rfl
    | ok l => exact congrArg Except.ok (scaleArr_scaleArr _ _ _).symm
  · rw [smallCrater_unit, smallCrater_unit c, hu, hw]
    cases smallCraterIce c.unit.flux time with
    | error e => rfl
    | ok l => exact congrArg Except.ok (scaleArr_scaleArr _ _ _).symm
  · rw [iceStochastic_unit, iceStochastic_unit g c, hu, hh]
  · rw [iceBasins_unit, iceBasins_unit g c, hu, hh]

/-- **C116** If comets are on, the micrometeorites are comets: the mass rate of micrometeorites has
no effect on the ice of asteroids. -/
theorem C116_micrometeorites (g : Gen σ) (c : RunCfg) (hc : c.is_comet = false)
    (hi : c.impact_ice_comets = true) (x : ℝ) (df : CraterTable) (time : List ℝ) (s : σ) :
    impactIce g { c with mm_mass_rate := x } df time s = impactIce g c df time s ∧
      iceMicrometeorites c.flux time = time.map (fun _ => 0) := by
  have h0 : ∀ c : RunCfg, c.is_comet = false → c.impact_ice_comets = true →
      iceMicrometeorites c.flux time = time.map (fun _ => 0) := by
    intro c hc hi
    unfold iceMicrometeorites
    congr 1
    funext t
    change _ * (if c.is_comet = true then _ else if c.impact_ice_comets = true then (0 : ℝ) else _) * _ = _
    rw [hc, hi]
    simp
  refine ⟨?_, h0 c hc hi⟩
  have e : nonBasinIce g { c with mm_mass_rate := x } time s = nonBasinIce g c time s := by
    have hst : ∀ r s, iceStochastic g { c with mm_mass_rate := x } time r s =
        iceStochastic g c time r s := by
      intro r s
      rw [iceStochastic_unit, iceStochastic_unit g c]
      rfl
    unfold nonBasinIce
    rw [h0 c hc hi, h0 { c with mm_mass_rate := x } hc hi]
    simp only [hst]
    rfl
  unfold impactIce
  rw [e]
  rfl

/-- **C116** Without water in them asteroids and comets deliver no ice. -/
theorem C116_dry (g : Gen σ) (c : RunCfg) (hc : c.is_comet = false) (df : CraterTable)
    (time : List ℝ) (s s' : σ) (ice : List ℝ) :
    (c.hydrated_wt_pct = 0 → impactIce g c df time s = .ok (ice, s') → ∀ x ∈ ice, x = 0) ∧
      (c.comet_hydrated_wt_pct = 0 → impactIceComet g c df time s = .ok (ice, s') →
        ∀ x ∈ ice, x = 0) := by
  have key : ∀ r : Except PyErr (List ℝ × σ), r = scaleRes 0 r → r = .ok (ice, s') →
      ∀ x ∈ ice, x = 0 := by
    intro r h1 h2 x hx
    rw [h2] at h1
    change Except.ok (ice, s') = Except.ok (scaleArr 0 ice, s') at h1
    injection h1 with h1
    injection h1 with h1 _
    rw [h1] at hx
    unfold scaleArr at hx
    obtain ⟨y, -, rfl⟩ := List.mem_map.1 hx
    exact zero_mul y
  constructor
  · intro h0 hr
    have := C116_asteroids g c hc 0 df time s
    rw [show ({ c with hydrated_wt_pct := 0 * c.hydrated_wt_pct } : RunCfg) = c by
      rw [zero_mul, ← h0]] at this
    exact key _ this hr
  · intro h0 hr
    have := C116_comets g c 0 df time s
    rw [show ({ c with comet_hydrated_wt_pct := 0 * c.comet_hydrated_wt_pct } : RunCfg) = c by
      rw [zero_mul, ← h0]] at this
    exact key _ this hr

/-- C116 for the shipped configuration: with half the hydration half the ice. -/
example (df : CraterTable) (hdf : ∀ r ∈ df, r.rest.crater.isbasin = true → 0 < r.rest.crater.rad)
    (time : List ℝ) (hne : time ≠ []) (s : Unit) : ∃ ice s',
      impactIce constGen (RunCfg.default 1) df time s = .ok (ice, s') ∧
      impactIce constGen { RunCfg.default 1 with
        hydrated_wt_pct := 1 / 2 * (RunCfg.default 1).hydrated_wt_pct } df time s =
          .ok (scaleArr (1 / 2) ice, s') := by
  obtain ⟨ice, s', h, -⟩ := impactIce_ok constGen constGen_lawful (default_physical 1) df hdf time hne s
  exact ⟨ice, s', h, by rw [C116_asteroids _ _ rfl, h]; rfl⟩

end MoonPIES
