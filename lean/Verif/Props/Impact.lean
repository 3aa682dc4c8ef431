import Verif.Props.Main

/-!
# C71: basin ice and the random draws
-/

namespace MoonPIES

variable {σ : Type}

/-- The configuration with `impact_ice_basins` set. -/
def RunCfg.withBasinIce (c : RunCfg) (b : Bool) : RunCfg := { c with impact_ice_basins := b }

theorem iceStochastic_flag (g : Gen σ) (c : RunCfg) (b : Bool) (time : List ℝ) (r : String) (s : σ) :
    iceStochastic g (c.withBasinIce b) time r s = iceStochastic g c time r s := by
  have h : ∀ diams prob counts s, stochLoop g (c.withBasinIce b) r diams prob counts s =
      stochLoop g c r diams prob counts s := by
    intro diams prob counts
    induction counts with
    | nil => intro s; rfl
    | cons n l ih =>
      intro s
      unfold stochLoop
      simp only [ih]
      rfl
  unfold iceStochastic
  simp only [h]
  rfl

/-- **C71** for every generator and state, configuration and time array, the ice of all impacts
other than basins, asteroids as well as comets, and the state after drawing it, are the same with
basin ice on and off. -/
theorem C71_non_basin_ice (g : Gen σ) (c : RunCfg) (b : Bool) (time : List ℝ) (s : σ) :
    nonBasinIce g (c.withBasinIce b) time s = nonBasinIce g c time s ∧
    nonBasinIce g (c.withBasinIce b).comet time s = nonBasinIce g c.comet time s := by
  constructor
  · unfold nonBasinIce
    simp only [iceStochastic_flag]
    rfl
  · have e : (c.withBasinIce b).comet = c.comet.withBasinIce b := rfl
    rw [e]
    unfold nonBasinIce
    simp only [iceStochastic_flag]
    rfl

/-- Spec: what a source delivers when basin ice is off, when it is on, and the state after it. -/
def AddsBasins (on off basins : List ℝ) : Prop := on = List.zipWith (· + ·) off basins

/-- Both settings of `get_impact_ice`: the same exception or the same final state, and the ice
differs by the ice of the basins in the table. -/
theorem impactIce_flag (g : Gen σ) (c : RunCfg) (df : CraterTable) (time : List ℝ) (s : σ) :
    (∃ e, impactIce g (c.withBasinIce true) df time s = .error e ∧
      impactIce g (c.withBasinIce false) df time s = .error e) ∨
    ∃ on off m basins s' s'', impactIce g (c.withBasinIce true) df time s = .ok (on, s'') ∧
      impactIce g (c.withBasinIce false) df time s = .ok (off, s'') ∧
      nonBasinIce g c time s = .ok (off, s') ∧ iceBasins g c df time s' = .ok (m, s'') ∧
      thicknessOf c m = .ok basins ∧ AddsBasins on off basins := by
  have hb : ∀ b s, iceBasins g (c.withBasinIce b) df time s = iceBasins g c df time s :=
    fun _ _ => rfl
  have ht : ∀ b m, thicknessOf (c.withBasinIce b) m = thicknessOf c m := fun _ _ => rfl
  unfold impactIce
  simp only [(C71_non_basin_ice g c _ time s).1, hb, ht, bind, Except.bind]
  cases h1 : nonBasinIce g c time s with
  | error e => exact Or.inl ⟨e, rfl, rfl⟩
  | ok p =>
    simp only []
    cases h2 : iceBasins g c df time p.2 with
    | error e => exact Or.inl ⟨e, rfl, rfl⟩
    | ok q =>
      simp only []
      cases h3 : thicknessOf c q.1 with
      | error e => exact Or.inl ⟨e, rfl, rfl⟩
      | ok m => exact Or.inr ⟨_, _, q.1, m, p.2, q.2, rfl, rfl, rfl, h2, h3, rfl⟩

/-- **C71** for every generator and state, crater table, configuration and time array: switching
basin ice off changes neither whether `get_polar_ice` raises nor the generator state it leaves
behind, and the ice with basins is the ice without, plus the ice of the asteroid basins, plus, if
comets are on, the ice of the comet basins. -/
theorem C71_polar_ice (g : Gen σ) (c : RunCfg) (lum : List (ℝ × ℝ)) (df : CraterTable)
    (time : List ℝ) (s : σ) :
    (∃ e, polarIce g (c.withBasinIce true) lum df time s = .error e ∧
      polarIce g (c.withBasinIce false) lum df time s = .error e) ∨
    ∃ astOn astOff cometOn cometOff ma mc ba bc solar s1 s2 s3 s4,
      nonBasinIce g c time s = .ok (astOff, s1) ∧ iceBasins g c df time s1 = .ok (ma, s2) ∧
      nonBasinIce g c.comet time s2 = .ok (cometOff, s3) ∧
      iceBasins g c.comet df time s3 = .ok (mc, s4) ∧
      thicknessOf c ma = .ok ba ∧ thicknessOf c mc = .ok bc ∧
      AddsBasins astOn astOff ba ∧ AddsBasins cometOn cometOff bc ∧
      polarIce g (c.withBasinIce true) lum df time s =
        .ok (addArr (if c.impact_ice_comets then addArr astOn cometOn else astOn) solar, s4) ∧
      polarIce g (c.withBasinIce false) lum df time s =
        .ok (addArr (if c.impact_ice_comets then addArr astOff cometOff else astOff) solar, s4) := by
  have e : ∀ b, (c.withBasinIce b).comet = c.comet.withBasinIce b := fun _ => rfl
  have hs : ∀ b, (c.withBasinIce b).solar = c.solar := fun _ => rfl
  have hcm : ∀ b, (c.withBasinIce b).impact_ice_comets = c.impact_ice_comets := fun _ => rfl
  unfold polarIce impactIceComet
  simp only [e, hs, hcm, bind, Except.bind]
  rcases impactIce_flag g c df time s with ⟨x, h1, h2⟩ |
    ⟨on, off, m, basins, s1, s2, h1, h2, h3, h4, h5, h6⟩
  · rw [h1, h2]
    exact Or.inl ⟨x, rfl, rfl⟩
  rw [h1, h2]
  simp only []
  rcases impactIce_flag g c.comet df time s2 with ⟨x, k1, k2⟩ |
    ⟨on', off', m', basins', s3, s4, k1, k2, k3, k4, k5, k6⟩
  · rw [k1, k2]
    exact Or.inl ⟨x, rfl, rfl⟩
  rw [k1, k2]
  simp only []
  cases h7 : solarWindIce c.solar lum time with
  | error x => exact Or.inl ⟨x, rfl, rfl⟩
  | ok solar =>
    exact Or.inr ⟨on, off, on', off', m, m', basins, basins', solar, s1, s2, s3, s4, h3, h4, k3, k4,
      h5, k5, h6, k6, rfl, rfl⟩

/-- A table with one basin of radius 200 km, 3.8 Ga old, made by a hydrated asteroid. -/
noncomputable def basinTable : CraterTable :=
  [readRow true "hyd_ctype" ⟨"B", -80, 0, none, 400, 3.8, 0.1, 0.1⟩]

/-- C71 covers runs that deliver ice: the second case holds for the default configuration. -/
example : ∃ off on s, polarIce constGen ((RunCfg.default 1).withBasinIce false)
      (readLuminosity (shippedData [] sortDesc id id).lum) basinTable [4000000000, 3800000000] () =
        .ok (off, s) ∧
    polarIce constGen ((RunCfg.default 1).withBasinIce true)
      (readLuminosity (shippedData [] sortDesc id id).lum) basinTable [4000000000, 3800000000] () =
        .ok (on, s) := by
  obtain ⟨on, s, h, -⟩ := polarIce_ok constGen constGen_lawful (default_physical 1)
    (default_data [] sortDesc id id sortDesc_spec 1) basinTable (by
      intro r hr _
      simp only [basinTable, List.mem_singleton] at hr
      subst hr
      simp only [readRow]
      norm_num) [4000000000, 3800000000] (by simp) ()
  rcases C71_polar_ice constGen (RunCfg.default 1) (readLuminosity (shippedData [] sortDesc id id).lum)
    basinTable [4000000000, 3800000000] () with ⟨e, h1, -⟩ |
      ⟨_, _, _, _, _, _, _, _, _, _, _, _, _, -, -, -, -, -, -, -, -, h1, h2⟩
  · have : (RunCfg.default 1).withBasinIce true = RunCfg.default 1 := rfl
    rw [this, h] at h1
    cases h1
  · exact ⟨_, _, _, h2, h1⟩

end MoonPIES
