import Verif.Lemmas.Steps
import Mathlib.Analysis.SpecialFunctions.Integrals.Basic
import Mathlib.Analysis.Complex.ExponentialBounds

/-!
# C149 What the length of the timestep does to the number of impacts
-/

namespace MoonPIES

open Spec Real Filter Topology

/-- **C149** as many impacts as the flux of the model has in the last `T` years. -/
theorem C149_true (T : ℝ) : ∫ t in (0 : ℝ)..T, fluxScaling t = yearsAtToday T := by
  have hd : ∀ t ∈ Set.uIcc 0 T, HasDerivAt yearsAtToday (fluxScaling t) t := by
    intro t _
    have h1 : HasDerivAt (fun t : ℝ => t * 1e-9) (1e-9) t := hasDerivAt_mul_const _
    have h2 : HasDerivAt (fun t : ℝ => 6.93 * (t * 1e-9)) (6.93 * 1e-9) t := h1.const_mul _
    have h3 := ((((h2.exp).sub_const 1).const_mul (5.44e-14 : ℝ)).add (h1.const_mul (8.38e-4 : ℝ))).div_const
      cratersToday
    refine (h3.mul_const (1e9 : ℝ)).congr_deriv ?_
    rw [scaling_eq]
    ring
  have hc : Continuous fluxScaling := by
    have : fluxScaling = fun t => (6.93 * 5.44e-14 * exp (6.93 * (t * 1e-9)) + 8.38e-4) / cratersToday :=
      funext scaling_eq
    rw [this]
    fun_prop
  rw [intervalIntegral.integral_eq_sub_of_hasDerivAt hd (hc.intervalIntegrable _ _)]
  simp [yearsAtToday, cratersSince]

/-- **C149** what the timesteps of a run ending at the present add up to. -/
theorem C149_sum {dt T : ℝ} (hdt : 0 < dt) (n : Nat) (hn : 0 < n) (hT : T = n * dt) {time : List ℝ}
    (ht : getTimeArray T 0 dt = .ok time) : dt * (time.map fluxScaling).sum = yearsCounted dt T := by
  rw [run_grid hdt n hn hT ht, sum_scaling dt hdt n, hT]

/-- **C149** micrometeorites: the total over a run is the yearly rate of today times this. -/
theorem C149_micrometeorites (cfg : FluxCfg) {rate : ℝ} (h1 : iceMicrometeorites { cfg with timestep := 1 } [0] = [rate])
    {dt T : ℝ} (hdt : 0 < dt) (n : Nat) (hn : 0 < n) (hT : T = n * dt) {time : List ℝ}
    (ht : getTimeArray T 0 dt = .ok time) :
    (iceMicrometeorites { cfg with timestep := dt } time).sum = rate * yearsCounted dt T := by
  obtain ⟨r, hr⟩ := micro_rate cfg
  exact steady_total (f := fun dt time => .ok (iceMicrometeorites { cfg with timestep := dt } time))
    (.inr ⟨r, fun dt time => congrArg Except.ok (hr dt time)⟩) (congrArg Except.ok h1) hdt n hn hT ht rfl

/-- **C149** small impactors: the same. -/
theorem C149_small_impactors (cfg : FluxCfg) {rate : ℝ}
    (h1 : smallImpactorIce { cfg with timestep := 1 } [0] = .ok [rate])
    {dt T : ℝ} (hdt : 0 < dt) (n : Nat) (hn : 0 < n) (hT : T = n * dt) {time out : List ℝ}
    (ht : getTimeArray T 0 dt = .ok time) (h : smallImpactorIce { cfg with timestep := dt } time = .ok out) :
    out.sum = rate * yearsCounted dt T :=
  steady_total (impactors_steady cfg) h1 hdt n hn hT ht h

/-- **C149** small craters: the same. -/
theorem C149_small_craters (cfg : FluxCfg) {rate : ℝ}
    (h1 : smallCraterIce { cfg with timestep := 1 } [0] = .ok [rate])
    {dt T : ℝ} (hdt : 0 < dt) (n : Nat) (hn : 0 < n) (hT : T = n * dt) {time out : List ℝ}
    (ht : getTimeArray T 0 dt = .ok time) (h : smallCraterIce { cfg with timestep := dt } time = .ok out) :
    out.sum = rate * yearsCounted dt T :=
  steady_total (craters_steady cfg) h1 hdt n hn hT ht h

/-- **C149** numbers of craters of a regime: the same. -/
theorem C149_craters (cfg : FluxCfg) (regime : String) {rate : ℝ} {ds0 ps0 : List ℝ}
    (h1 : craterPop { cfg with timestep := 1 } [0] regime = .ok (ds0, [rate], ps0))
    {dt T : ℝ} (hdt : 0 < dt) (n : Nat) (hn : 0 < n) (hT : T = n * dt) {time ds counts ps : List ℝ}
    (ht : getTimeArray T 0 dt = .ok time)
    (h : craterPop { cfg with timestep := dt } time regime = .ok (ds, counts, ps)) :
    counts.sum = rate * yearsCounted dt T :=
  steady_total (counts_steady cfg regime) (by simp only [h1]; rfl) hdt n hn hT ht (by simp only [h]; rfl)

/-- **C149** whether these raise does not depend on the timestep. -/
theorem C149_raises (cfg : FluxCfg) (dt : ℝ) (time : List ℝ) (regime : String) :
    ((∃ out, smallImpactorIce { cfg with timestep := dt } time = .ok out) ↔
      ∃ out, smallImpactorIce { cfg with timestep := 1 } [0] = .ok out) ∧
    ((∃ out, smallCraterIce { cfg with timestep := dt } time = .ok out) ↔
      ∃ out, smallCraterIce { cfg with timestep := 1 } [0] = .ok out) ∧
    ((∃ out, craterPop { cfg with timestep := dt } time regime = .ok out) ↔
      ∃ out, craterPop { cfg with timestep := 1 } [0] regime = .ok out) := by
  have key : ∀ {f : ℝ → List ℝ → Except PyErr (List ℝ)}, Steady f →
      ((∃ out, f dt time = .ok out) ↔ ∃ out, f 1 [0] = .ok out) := by
    intro f hf
    rcases hf with ⟨e, he⟩ | ⟨r, hr⟩
    · constructor
      · rintro ⟨o, ho⟩; rw [he] at ho; cases ho
      · rintro ⟨o, ho⟩; rw [he] at ho; cases ho
    · exact ⟨fun _ => ⟨_, hr _ _⟩, fun _ => ⟨_, hr _ _⟩⟩
  refine ⟨key (impactors_steady cfg), key (craters_steady cfg), ?_⟩
  have h := key (counts_steady cfg regime)
  have e : ∀ (r : Except PyErr (List ℝ × List ℝ × List ℝ)),
      (∃ out, r.map (fun r => r.2.1) = .ok out) ↔ ∃ out, r = .ok out := by
    intro r
    cases r with
    | error e => constructor <;> (rintro ⟨o, ho⟩; cases ho)
    | ok a => exact ⟨fun _ => ⟨_, rfl⟩, fun _ => ⟨_, rfl⟩⟩
  rw [e, e] at h
  exact h

/-- **C149** steps always count too many, by less than `overcount`. -/
theorem C149_over {dt T : ℝ} (hdt : 0 < dt) (hT : 0 < T) : yearsAtToday T < yearsCounted dt T ∧
    yearsCounted dt T < overcount (6.93 * (dt * 1e-9)) * yearsAtToday T := by
  have hx : 0 < 6.93 * (dt * 1e-9) := by positivity
  have ho := overcount_gt hx
  have ht := today_pos
  have hE : 0 < 5.44e-14 * (exp (6.93 * (T * 1e-9)) - 1) := by
    have := add_one_lt_exp (x := 6.93 * (T * 1e-9)) (by positivity)
    have h2 : 0 < 6.93 * (T * 1e-9) := by positivity
    apply mul_pos (by norm_num)
    linarith
  have hL : 0 < 8.38e-4 * (T * 1e-9) := by positivity
  unfold yearsCounted yearsAtToday cratersSince
  constructor
  · apply mul_lt_mul_of_pos_right _ (by norm_num)
    apply div_lt_div_of_pos_right _ ht
    nlinarith
  · obtain ⟨o, hod⟩ : ∃ o, o = overcount (6.93 * (dt * 1e-9)) := ⟨_, rfl⟩
    rw [← hod] at ho ⊢
    obtain ⟨E, hEd⟩ : ∃ E, E = 5.44e-14 * (exp (6.93 * (T * 1e-9)) - 1) := ⟨_, rfl⟩
    rw [← hEd] at hE ⊢
    have e : ∀ a : ℝ, o * (a / cratersToday * 1e9) = o * a / cratersToday * 1e9 := by intro a; ring
    rw [e]
    apply mul_lt_mul_of_pos_right _ (by norm_num)
    apply div_lt_div_of_pos_right _ ht
    nlinarith

/-- **C149** the longer the timestep, the more. -/
theorem C149_finer {dt dt' T : ℝ} (hdt : 0 < dt) (hlt : dt < dt') (hT : 0 < T) :
    yearsCounted dt T < yearsCounted dt' T := by
  have hx : 0 < 6.93 * (dt * 1e-9) := by positivity
  have ho := overcount_strict hx (show 6.93 * (dt * 1e-9) < 6.93 * (dt' * 1e-9) by linarith)
  have hE : 0 < 5.44e-14 * (exp (6.93 * (T * 1e-9)) - 1) := by
    have := add_one_lt_exp (x := 6.93 * (T * 1e-9)) (by positivity)
    have h2 : 0 < 6.93 * (T * 1e-9) := by positivity
    apply mul_pos (by norm_num)
    linarith
  unfold yearsCounted
  apply mul_lt_mul_of_pos_right _ (by norm_num)
  apply div_lt_div_of_pos_right _ today_pos
  nlinarith

/-- **C149** the count tends to the true one as the timestep goes to 0. -/
theorem C149_limit {T : ℝ} (hT : 0 < T) :
    Tendsto (fun dt => yearsCounted dt T) (𝓝[>] 0) (𝓝 (yearsAtToday T)) := by
  have h1 : Tendsto (fun dt : ℝ => (1 + 6.93 * (dt * 1e-9)) * yearsAtToday T) (𝓝[>] 0) (𝓝 (yearsAtToday T)) := by
    have : Tendsto (fun dt : ℝ => (1 + 6.93 * (dt * 1e-9)) * yearsAtToday T) (𝓝 0)
        (𝓝 ((1 + 6.93 * (0 * 1e-9)) * yearsAtToday T)) := (by fun_prop : Continuous _).tendsto 0
    simp only [zero_mul, mul_zero, add_zero, one_mul] at this
    exact this.mono_left nhdsWithin_le_nhds
  refine tendsto_of_tendsto_of_tendsto_of_le_of_le' tendsto_const_nhds h1 ?_ ?_
  · filter_upwards [self_mem_nhdsWithin] with dt hdt
    exact (C149_over hdt hT).1.le
  · filter_upwards [self_mem_nhdsWithin] with dt hdt
    have hdt : 0 < dt := hdt
    have h0 := (C149_over hdt hT).2
    have hx : 0 < 6.93 * (dt * 1e-9) := by positivity
    have h2 := overcount_le hx
    have h3 : 0 < yearsAtToday T := by
      have h4 := C149_over hdt hT
      have h5 := overcount_gt hx
      by_contra hc
      nlinarith [not_lt.1 hc]
    exact h0.le.trans (mul_le_mul_of_nonneg_right h2 h3.le)

/-- **C149** with the default times: between 3.4 and 3.6 percent too many. -/
theorem C149_shipped : 1.034 * yearsAtToday 4.25e9 < yearsCounted 10e6 4.25e9 ∧
    yearsCounted 10e6 4.25e9 < 1.036 * yearsAtToday 4.25e9 := by
  have hx : (6.93 : ℝ) * (10e6 * 1e-9) = 0.0693 := by norm_num
  have hb := exp_bound (x := -0.0693) (by rw [abs_neg, abs_of_pos] <;> norm_num) (n := 4) (by norm_num)
  simp only [Finset.sum_range_succ, Finset.sum_range_zero] at hb
  norm_num [Nat.factorial] at hb
  rw [abs_le] at hb
  have hp := one_sub_exp_pos (x := 0.0693) (by norm_num)
  have e1 : exp (-(0.0693 : ℝ)) = exp (-(693 / 10000)) := by norm_num
  have o1 : 1.035 < overcount 0.0693 := by
    unfold overcount
    rw [lt_div_iff₀ hp, e1]
    norm_num
    linarith [hb.1]
  have o2 : overcount 0.0693 < 1.036 := by
    unfold overcount
    rw [div_lt_iff₀ hp, e1]
    norm_num
    linarith [hb.2]
  have hy : 0 < yearsAtToday 4.25e9 := by
    have h4 := C149_over (dt := 10e6) (T := 4.25e9) (by norm_num) (by norm_num)
    rw [hx] at h4
    by_contra hc
    nlinarith [not_lt.1 hc]
  constructor
  · have hE : (3e12 : ℝ) < exp (6.93 * (4.25e9 * 1e-9)) := by
      have h1 : exp 29 < exp (6.93 * (4.25e9 * 1e-9)) := exp_lt_exp.2 (by norm_num)
      have h2 : exp 29 = exp 1 ^ 29 := by rw [← exp_nat_mul]; norm_num
      have h3 : (2.7182818283 : ℝ) ^ 29 ≤ exp 1 ^ 29 := pow_le_pow_left₀ (by norm_num) exp_one_gt_d9.le 29
      have h4 : (3e12 : ℝ) < 2.7182818283 ^ 29 := by norm_num
      linarith
    unfold yearsCounted yearsAtToday cratersSince
    have e : ∀ a : ℝ, 1.034 * (a / cratersToday * 1e9) = 1.034 * a / cratersToday * 1e9 := by intro a; ring
    rw [hx, e]
    apply mul_lt_mul_of_pos_right _ (by norm_num)
    apply div_lt_div_of_pos_right _ today_pos
    clear hb e1 e hp
    generalize exp (6.93 * (4.25e9 * 1e-9)) = E at *
    generalize overcount 0.0693 = o at *
    clear hx hy
    norm_num at o1 o2 hE ⊢
    nlinarith
  · have h4 := (C149_over (dt := 10e6) (T := 4.25e9) (by norm_num) (by norm_num)).2
    rw [hx] at h4
    nlinarith

/-! ## Examples -/

/-- Micrometeorites of the default configuration, had it no comets, over the default times. -/
example : ∃ time, getTimeArray (4.25e9 : ℝ) 0 10e6 = .ok time ∧
    (iceMicrometeorites { FluxCfg.default with impact_ice_comets := false, timestep := 10e6 } time).sum =
      16500 * yearsCounted 10e6 4.25e9 := by
  have ht := C19_uniform_partial (4.25e9 : ℝ) 10e6 425 (by norm_num) (by norm_num) (by norm_num)
  refine ⟨_, ht, ?_⟩
  exact C149_micrometeorites { FluxCfg.default with impact_ice_comets := false } (rate := 16500)
    (by
      simp only [iceMicrometeorites, List.map_cons, List.map_nil, C42_flux_scaling.1, FluxCfg.default]
      norm_num) (by norm_num) 425 (by norm_num) (by norm_num) ht

end MoonPIES
