import Verif.Model.Random
import Verif.Props.Rounding
import Mathlib.MeasureTheory.Constructions.Pi
import Mathlib.MeasureTheory.Integral.Bochner.Set

/-!
# C32: splitting impacts between asteroids and comets
-/

namespace MoonPIES

open MeasureTheory

/-- The uniform distribution on `[0, 1)`: one draw of `rng.random`. -/
noncomputable def Spec.unif : Measure ℝ := volume.restrict (Set.Ico 0 1)

open Spec

instance : IsProbabilityMeasure unif := ⟨by simp [unif]⟩

/-- Number of craters kept by `get_random_hydrated_craters` for a vector of draws. -/
noncomputable def hydCount (c : ImpCfg ℝ) (v : List ℝ) : ℕ := (hydratedCraters c v).count true

/-- Expected number of hydrated impactors of a stochastic regime at one timestep with
`n` craters expected globally: the count is scaled (`get_crater_pop`), rounded with a
uniform draw (`probabilistic_round`), and thinned with one uniform draw per crater
(`get_random_hydrated_craters`).  moonpies.py:1723-1757. -/
noncomputable def Spec.expectedStochastic (c : ImpCfg ℝ) (n : ℝ) : ℝ :=
  ∫ u in (0 : ℝ)..1, ∫ v : Fin (probRound (scaleCount c n) u).toNat → ℝ,
    (hydCount c (List.ofFn v) : ℝ) ∂(Measure.pi (fun _ => unif))

theorem hydCount_ofFn (c : ImpCfg ℝ) {N : ℕ} (v : Fin N → ℝ) :
    (hydCount c (List.ofFn v) : ℝ) =
      ∑ i, (Set.Iio (hydProbCraters c)).indicator (fun _ => (1 : ℝ)) (v i) := by
  unfold hydCount hydratedCraters
  induction N with
  | zero => simp
  | succ N ih =>
    rw [List.ofFn_succ, List.map_cons, Fin.sum_univ_succ, ← ih (fun i => v i.succ),
      List.count_cons]
    by_cases h : v 0 < hydProbCraters c
    · simp [h, add_comm]
    · simp [h]

theorem unif_Iio (p : ℝ) (h0 : 0 ≤ p) (h1 : p ≤ 1) :
    ∫ x, (Set.Iio p).indicator (fun _ => (1 : ℝ)) x ∂unif = p := by
  rw [integral_indicator_const (1 : ℝ) measurableSet_Iio]
  unfold unif
  rw [measureReal_restrict_apply measurableSet_Iio]
  have : Set.Iio p ∩ Set.Ico 0 1 = Set.Ico 0 p := by
    ext x; simp only [Set.mem_inter_iff, Set.mem_Iio, Set.mem_Ico]
    constructor
    · rintro ⟨a, b, _⟩; exact ⟨b, a⟩
    · rintro ⟨a, b⟩; exact ⟨b, a, b.trans_le h1⟩
  rw [this]
  simp [h0]

/-- Expected number kept out of `N`: `N * p`. -/
theorem expected_kept (c : ImpCfg ℝ) (N : ℕ) (h0 : 0 ≤ hydProbCraters c)
    (h1 : hydProbCraters c ≤ 1) :
    ∫ v : Fin N → ℝ, (hydCount c (List.ofFn v) : ℝ) ∂(Measure.pi (fun _ => unif)) =
      N * hydProbCraters c := by
  simp only [hydCount_ofFn]
  have hmeas : Measurable ((Set.Iio (hydProbCraters c)).indicator (fun _ => (1 : ℝ))) :=
    measurable_const.indicator measurableSet_Iio
  have hmp : ∀ i : Fin N, MeasurePreserving (Function.eval i)
      (Measure.pi (fun _ : Fin N => unif)) unif := fun i =>
    measurePreserving_eval (fun _ : Fin N => unif) i
  have hone : ∀ i : Fin N, ∫ v : Fin N → ℝ, (Set.Iio (hydProbCraters c)).indicator
      (fun _ => (1 : ℝ)) (v i) ∂(Measure.pi (fun _ => unif)) = hydProbCraters c := by
    intro i
    have := integral_map (μ := Measure.pi (fun _ : Fin N => unif)) (hmp i).measurable.aemeasurable
      (f := (Set.Iio (hydProbCraters c)).indicator (fun _ => (1 : ℝ)))
      hmeas.aestronglyMeasurable
    rw [(hmp i).map_eq, unif_Iio _ h0 h1] at this
    exact this.symm
  rw [integral_finsetSum]
  · simp [hone]
  · intro i _
    apply Integrable.of_bound (C := 1)
    · exact (hmeas.comp (measurable_pi_apply i)).aestronglyMeasurable
    · refine Filter.Eventually.of_forall (fun v => ?_)
      by_cases h : v i ∈ Set.Iio (hydProbCraters c)
      · simp [h]
      · simp [h]

/-- Expected number of hydrated impactors: scaled count times probability. -/
theorem expectedStochastic_eq (c : ImpCfg ℝ) (n : ℝ) (hn : 0 ≤ scaleCount c n)
    (h0 : 0 ≤ hydProbCraters c) (h1 : hydProbCraters c ≤ 1) :
    expectedStochastic c n = scaleCount c n * hydProbCraters c := by
  unfold expectedStochastic
  simp only [expected_kept c _ h0 h1]
  have hnn : Set.EqOn (fun u => ((probRound (scaleCount c n) u).toNat : ℝ) * hydProbCraters c)
      (fun u => (probRound (scaleCount c n) u : ℝ) * hydProbCraters c) (Set.uIcc 0 1) := by
    intro u hu
    rw [Set.uIcc_of_le zero_le_one] at hu
    have : 0 ≤ probRound (scaleCount c n) u := by
      unfold probRound
      exact Int.floor_nonneg.2 (by linarith [hu.1])
    have h2 : ((probRound (scaleCount c n) u).toNat : ℤ) = probRound (scaleCount c n) u :=
      Int.toNat_of_nonneg this
    have h3 : ((probRound (scaleCount c n) u).toNat : ℝ) = (probRound (scaleCount c n) u : ℝ) := by
      exact_mod_cast h2
    simp only [h3]
  rw [intervalIntegral.integral_congr hnn, intervalIntegral.integral_mul_const, C26_unbiased]

/-- A run that includes comets: the asteroid part. -/
def Spec.asteroidCfg (f cf ch : ℝ) : ImpCfg ℝ := ⟨false, true, false, f, cf, ch⟩

/-- **C32 (partial), continuous regimes.** In the regimes for small impactors and small
craters the asteroid and comet counts add up to the count without comets, the comet
share is exactly the configured fraction, for every count. -/
theorem C32_continuous_partial {K : Type} [Field K] [LinearOrder K] (c : ImpCfg K)
    (hc : c.isComet = false) (hon : c.comets = true) (n : K) :
    scaleCount c n + scaleCount c.toComet n = scaleCount { c with comets := false } n ∧
    scaleCount c.toComet n = c.cometFrac * n := by
  unfold scaleCount ImpCfg.toComet
  simp only [hc, hon, Bool.false_eq_true, if_true, if_false]
  constructor <;> ring

/-- **C32 refuted, stochastic regimes.** The comet fraction is applied to the count and
again to each crater: with a comet fraction of one half and 8 expected impacts, the
expected number of comets is 2, not 4. -/
theorem C32_stochastic_refuted :
    ¬ ∀ f cf ch n : ℝ, 0 ≤ f → f ≤ 1 → 0 ≤ cf → cf ≤ 1 → 0 ≤ ch → ch ≤ 1 → 0 ≤ n →
      expectedStochastic (asteroidCfg f cf ch).toComet n = f * n := by
  intro h
  have h1 := h (1 / 2) 1 1 8 (by norm_num) (by norm_num) (by norm_num) (by norm_num) (by norm_num)
    (by norm_num) (by norm_num)
  rw [expectedStochastic_eq] at h1
  · simp only [scaleCount, hydProbCraters, ImpCfg.toComet, asteroidCfg, if_true] at h1
    norm_num at h1
  · simp only [scaleCount, ImpCfg.toComet, asteroidCfg, if_true]; norm_num
  · simp only [hydProbCraters, ImpCfg.toComet, asteroidCfg, if_true]; norm_num
  · simp only [hydProbCraters, ImpCfg.toComet, asteroidCfg, if_true]; norm_num

/-- **C32 (partial), stochastic regimes.** Full claim: comet share `f`, asteroid share
`1 - f` (refuted).  What the code delivers in expectation: `f² n` comets, `(1 - f)² · cf
· ch · n` hydrated asteroids with comets on, and `cf · ch · n` with comets off. -/
theorem C32_stochastic_partial (f cf ch n : ℝ) (hf0 : 0 ≤ f) (hf1 : f ≤ 1) (hc0 : 0 ≤ cf)
    (hc1 : cf ≤ 1) (hh0 : 0 ≤ ch) (hh1 : ch ≤ 1) (hn : 0 ≤ n) :
    expectedStochastic (asteroidCfg f cf ch).toComet n = f ^ 2 * n ∧
    expectedStochastic (asteroidCfg f cf ch) n = (1 - f) ^ 2 * cf * ch * n ∧
    expectedStochastic { asteroidCfg f cf ch with comets := false } n = cf * ch * n := by
  have hg : 0 ≤ 1 - f := by linarith
  have hm : (1 - f) * cf * ch ≤ 1 := by
    have := mul_le_one₀ (mul_le_one₀ (show 1 - f ≤ 1 by linarith) hc0 hc1) hh0 hh1
    exact this
  have hm2 : cf * ch ≤ 1 := mul_le_one₀ hc1 hh0 hh1
  refine ⟨?_, ?_, ?_⟩
  · rw [expectedStochastic_eq]
    · simp only [scaleCount, hydProbCraters, ImpCfg.toComet, asteroidCfg, if_true]; ring
    · simp only [scaleCount, ImpCfg.toComet, asteroidCfg, if_true]; positivity
    · simpa only [hydProbCraters, ImpCfg.toComet, asteroidCfg, if_true]
    · simpa only [hydProbCraters, ImpCfg.toComet, asteroidCfg, if_true]
  · rw [expectedStochastic_eq]
    · simp only [scaleCount, hydProbCraters, asteroidCfg, if_true, Bool.false_eq_true, if_false]; ring
    · simp only [scaleCount, asteroidCfg, if_true, Bool.false_eq_true, if_false]
      exact mul_nonneg hn hg
    · simp only [hydProbCraters, asteroidCfg, if_true, Bool.false_eq_true, if_false]
      exact mul_nonneg (mul_nonneg hg hc0) hh0
    · simpa only [hydProbCraters, asteroidCfg, if_true, Bool.false_eq_true, if_false]
  · rw [expectedStochastic_eq]
    · simp only [scaleCount, hydProbCraters, asteroidCfg, Bool.false_eq_true, if_false]; ring
    · simp only [scaleCount, asteroidCfg, Bool.false_eq_true, if_false]
      exact hn
    · simp only [hydProbCraters, asteroidCfg, Bool.false_eq_true, if_false]
      exact mul_nonneg hc0 hh0
    · simpa only [hydProbCraters, asteroidCfg, Bool.false_eq_true, if_false]

/-- **C32 (partial), micrometeorites.** With comets on, all micrometeorite ice is
cometary whatever the configured fraction: the asteroid part is zero and the comet part
is the full mass rate. -/
theorem C32_micrometeorites_partial {K : Type} [Field K] [LinearOrder K] (c : ImpCfg K)
    (hc : c.isComet = false) (hon : c.comets = true) (cw cr w r : K) :
    mmIceRet c cw cr w r = 0 ∧ mmIceRet c.toComet cw cr w r = cw * cr := by
  unfold mmIceRet ImpCfg.toComet
  simp [hc, hon]

/-- Numbers: the default comet fraction 0.05 gives a comet share of 0.0025. -/
example : expectedStochastic (asteroidCfg (1 / 20) (9 / 25) (2 / 3)).toComet 400 = 1 := by
  rw [(C32_stochastic_partial (1 / 20) (9 / 25) (2 / 3) 400 (by norm_num) (by norm_num)
    (by norm_num) (by norm_num) (by norm_num) (by norm_num) (by norm_num)).1]
  norm_num

end MoonPIES
