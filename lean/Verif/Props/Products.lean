import Verif.Lemmas.Products
import Verif.Lemmas.Shipped

/-!
# C148 Settings a run cannot tell apart

Each theorem replaces settings by others and gives the same run, output and exceptions included.
-/

namespace MoonPIES

open Spec

variable {σ : Type}

/-- Area of cold traps and density of ice enter through their product. -/
theorem C148_area (g : Gen σ) (c : RunCfg) (d : RunData) {k : ℝ} (hk : k ≠ 0) :
    runMain g (tradeArea k c) d = runMain g c d := by
  refine run_same_parts g rfl rfl rfl rfl rfl (fun _ => rfl) rfl rfl rfl rfl rfl ?_ (fun _ _ _ _ => rfl) rfl
  intro df time s
  refine iceCols_same_parts g (c := c) (c' := tradeArea k c) d df time (area_polar hk g c _ df time) ?_ rfl (fun _ _ => rfl) s
  intro rint tol ts
  unfold volcanicIce
  simp only [area_thick hk]
  rfl

/-- Fraction of C-types and fraction of them hydrated enter through their product. -/
theorem C148_ctype (g : Gen σ) (c : RunCfg) (d : RunData) {k : ℝ} (hk : k ≠ 0) :
    runMain g (tradeCtype k c) d = runMain g c d := by
  refine run_same_parts g rfl rfl rfl rfl rfl ?_ rfl rfl rfl rfl rfl ?_ (fun _ _ _ _ => rfl) rfl
  · intro s
    unfold craterBasinList
    simp only [ctype_icy hk]
    rfl
  · intro df time s
    refine iceCols_same_parts g (c := c) (c' := tradeCtype k c) d df time ?_ (fun _ _ _ => rfl) rfl (fun _ _ => rfl) s
    intro s
    have hcm : ∀ s, impactIce g (tradeCtype k c).comet df time s = impactIce g c.comet df time s :=
      fun s => ctype_impact hk g c.comet df time s
    unfold polarIce impactIceComet
    simp only [ctype_impact hk, hcm]
    rfl

/-- Volume of magma, its density and the ice in it enter through their product. -/
theorem C148_magma (g : Gen σ) (c : RunCfg) (d : RunData) {k m : ℝ} (hk : k ≠ 0) (hm : m ≠ 0) :
    runMain g (tradeMagma k m c) d = runMain g c d := by
  refine run_same_parts g rfl rfl rfl rfl rfl (fun _ => rfl) rfl rfl rfl rfl rfl ?_ (fun _ _ _ _ => rfl) rfl
  intro df time s
  exact iceCols_same_parts g (c := c) (c' := tradeMagma k m c) d df time (magma_polar g c _ df time) (fun _ _ _ => magma_volc hk hm c _ _ _ _ _ _) rfl
    (fun _ _ => rfl) s

/-- The intercept of Brown et al. and the Earth to Moon ratio enter through `10 ^ c0 / ratio`. -/
theorem C148_brown (g : Gen σ) (c : RunCfg) (d : RunData) (k : ℝ) :
    runMain g (tradeBrown k c) d = runMain g c d := by
  refine run_same_parts g rfl rfl rfl rfl rfl (fun _ => rfl) rfl rfl rfl rfl rfl ?_ (fun _ _ _ _ => rfl) rfl
  intro df time s
  refine iceCols_same_parts g (c := c) (c' := tradeBrown k c) d df time ?_ (fun _ _ _ => rfl) rfl (fun _ _ => rfl) s
  intro s
  have hcm : ∀ s, impactIce g (tradeBrown k c).comet df time s = impactIce g c.comet df time s :=
    fun s => brown_impact k g c.comet df time s
  unfold polarIce impactIceComet
  simp only [brown_impact, hcm]
  rfl

/-- Efficiencies and density enter through their ratios. -/
theorem C148_effcy (g : Gen σ) (c : RunCfg) (d : RunData) {k : ℝ} (hk : k ≠ 0) :
    runMain g (tradeEffcy k c) { d with hop := scaleHop k d.hop } = runMain g c d :=
  run_same_parts g rfl rfl rfl rfl rfl (fun _ => rfl) rfl rfl rfl rfl rfl
    (fun df time s => effcy_iceCols hk g c d df time s) (fun _ _ _ _ => rfl) rfl

/-- With the table of Moores the overall hop efficiency has no effect, as long as it is not 0. -/
theorem C148_hop (g : Gen σ) (c : RunCfg) (d : RunData) {h : ℝ} (hh : h ≠ 0) (h0 : c.ballistic_hop_effcy ≠ 0)
    (hm : c.ballistic_hop_moores = true) : runMain g (withHop h c) d = runMain g c d :=
  run_same_parts g rfl rfl rfl rfl rfl (fun _ => rfl) rfl rfl rfl rfl rfl
    (fun df time s => hop_iceCols hh h0 hm g d df time s) (fun _ _ _ _ => rfl) rfl

/-- Without the table and without separate volcanic efficiency, the ice delivered to each trap at each time is
proportional to it. -/
theorem C148_hop_off (g : Gen σ) (c : RunCfg) (d : RunData) (h : ℝ) (h0 : c.ballistic_hop_effcy ≠ 0)
    (hm : c.ballistic_hop_moores = false) (hv : c.use_volc_dep_effcy = false) (df : CraterTable) (time : List ℝ)
    (s : σ) : iceCols g (withHop h c) d df time s =
      (iceCols g c d df time s).map (fun r => (r.1.map (List.map (h / c.ballistic_hop_effcy * ·)), r.2)) :=
  hop_iceCols_off h0 hm hv g d df time s

/-! ## Examples -/

/-- In the default run the overall efficiency of CO2 in place of that of H2O changes nothing. -/
example (g : Gen σ) (d : RunData) (seed : Int) :
    runMain g (withHop 0.027 (RunCfg.default seed)) d = runMain g (RunCfg.default seed) d :=
  C148_hop g (RunCfg.default seed) d (by norm_num) (by norm_num [RunCfg.default]) rfl

/-- The default run with 72 % C-types, a third of them hydrated. -/
example (g : Gen σ) (d : RunData) (seed : Int) :
    runMain g { RunCfg.default seed with ctype_frac := 0.72, ctype_hydrated := 1 / 3 } d =
      runMain g (RunCfg.default seed) d := by
  rw [← C148_ctype g (RunCfg.default seed) d (k := 2) (by norm_num)]
  congr 1
  simp only [tradeCtype, RunCfg.default]
  norm_num

/-- The default run at a tenth of the flux on Earth with a ratio a tenth as large. -/
example (g : Gen σ) (d : RunData) (seed : Int) :
    runMain g { RunCfg.default seed with brown_c0 := 0.568, earth_moon_ratio := 2.25 } d =
      runMain g (RunCfg.default seed) d := by
  rw [← C148_brown g (RunCfg.default seed) d (-1)]
  congr 1
  simp only [tradeBrown, RunCfg.default, Real.rpow_neg_one]
  norm_num

end MoonPIES
