import Verif.Spec.Steps
import Verif.Props.Flux
import Verif.Props.TimeArray
import Mathlib.Algebra.Field.GeomSum

/-!
# Lemmas for C149
-/

namespace MoonPIES

open Spec Real

theorem scaling_eq (t : ℝ) : fluxScaling t =
    (6.93 * 5.44e-14 * exp (6.93 * (t * 1e-9)) + 8.38e-4) / cratersToday := by
  rw [(C42_ivanov t).2]
  unfold cratersToday
  congr 1
  ring

theorem today_pos : 0 < cratersToday := by
  unfold cratersToday
  norm_num

theorem one_sub_exp_pos {x : ℝ} (hx : 0 < x) : 0 < 1 - exp (-x) := by
  have : exp (-x) < 1 := by simpa using exp_lt_exp.2 (show -x < 0 by linarith)
  linarith

/-- Sum of an exponential over the end points of `n` steps. -/
theorem geom_exp (x : ℝ) (hx : 0 < x) : ∀ n : Nat,
    ((List.range n).map (fun i : Nat => exp (x * (n - i)))).sum = (exp (x * n) - 1) / (1 - exp (-x))
  | 0 => by simp
  | n + 1 => by
    have h := one_sub_exp_pos hx
    rw [List.range_succ_eq_map, List.map_cons, List.sum_cons, List.map_map]
    have e : (List.range n).map ((fun i : Nat => exp (x * (((n + 1 : Nat) : ℝ) - i))) ∘ Nat.succ) =
        (List.range n).map (fun i : Nat => exp (x * (n - i))) := by
      apply List.map_congr_left
      intro i _
      simp only [Function.comp, Nat.succ_eq_add_one, Nat.cast_add, Nat.cast_one]
      congr 2
      ring
    rw [e, geom_exp x hx n, eq_div_iff h.ne', add_mul, div_mul_cancel₀ _ h.ne']
    have e2 : exp (x * ((n + 1 : Nat) : ℝ)) * exp (-x) = exp (x * n) := by
      rw [← exp_add]
      congr 1
      push_cast
      ring
    simp only [Nat.cast_zero, sub_zero]
    rw [mul_sub, e2]
    ring

theorem overcount_gt {x : ℝ} (hx : 0 < x) : 1 < overcount x := by
  unfold overcount
  rw [one_lt_div (one_sub_exp_pos hx)]
  have := add_one_lt_exp (x := -x) (by linarith)
  linarith

theorem overcount_le {x : ℝ} (hx : 0 < x) : overcount x ≤ 1 + x := by
  unfold overcount
  rw [div_le_iff₀ (one_sub_exp_pos hx)]
  have h1 : exp (-x) * (1 + x) ≤ 1 := by
    have h2 := add_one_le_exp x
    calc exp (-x) * (1 + x) ≤ exp (-x) * exp x := by
          apply mul_le_mul_of_nonneg_left _ (exp_pos _).le
          linarith
      _ = 1 := by rw [← exp_add]; simp
  nlinarith

theorem overcount_strict {x y : ℝ} (hx : 0 < x) (hxy : x < y) : overcount x < overcount y := by
  have hy : 0 < y := hx.trans hxy
  have h := strictConvexOn_exp.secant_strict_mono (Set.mem_univ (0 : ℝ)) (Set.mem_univ (-y)) (Set.mem_univ (-x))
    (by linarith) (by linarith) (by linarith)
  rw [exp_zero, sub_zero, sub_zero] at h
  have e : ∀ z : ℝ, (exp (-z) - 1) / -z = (1 - exp (-z)) / z := by
    intro z
    rw [div_neg, ← neg_div, neg_sub]
  rw [e, e] at h
  have hpx := one_sub_exp_pos hx
  have hpy := one_sub_exp_pos hy
  unfold overcount
  rw [div_lt_div_iff₀ hpx hpy]
  rw [div_lt_div_iff₀ hy hx] at h
  linarith

/-- Flux summed over the times of a run. -/
theorem sum_scaling (dt : ℝ) (hdt : 0 < dt) (n : Nat) :
    dt * ((uniformGrid (n * dt) dt n).map fluxScaling).sum = yearsCounted dt (n * dt) := by
  have ht := today_pos
  have hx : 0 < 6.93 * (dt * 1e-9) := by positivity
  have e1 : (uniformGrid (n * dt) dt n).map fluxScaling = (List.range n).map (fun i : Nat =>
      6.93 * 5.44e-14 / cratersToday * exp (6.93 * (dt * 1e-9) * (n - i)) + 8.38e-4 / cratersToday) := by
    unfold uniformGrid
    rw [List.map_map]
    apply List.map_congr_left
    intro i _
    simp only [Function.comp]
    rw [scaling_eq]
    have : 6.93 * ((n * dt - i * dt) * 1e-9) = 6.93 * (dt * 1e-9) * (n - i) := by ring
    rw [this]
    ring
  rw [e1, List.sum_map_add, List.sum_map_mul_left, geom_exp _ hx]
  unfold yearsCounted overcount
  have e2 : 6.93 * (dt * 1e-9) * n = 6.93 * (n * dt * 1e-9) := by ring
  rw [e2]
  have hp := one_sub_exp_pos hx
  simp only [List.map_const', List.sum_replicate, List.length_range, nsmul_eq_mul]
  field_simp
  ring

/-- The times of a run that ends at the present. -/
theorem run_grid {dt T : ℝ} (hdt : 0 < dt) (n : Nat) (hn : 0 < n) (hT : T = n * dt) {time : List ℝ}
    (h : getTimeArray T 0 dt = .ok time) : time = uniformGrid (n * dt) dt n := by
  rw [C19_uniform_partial T dt n hn hdt hT, hT] at h
  injection h with h
  exact h.symm

theorem sum_rate (rate dt : ℝ) (time : List ℝ) :
    (time.map (fun t => rate * dt * fluxScaling t)).sum = rate * (dt * (time.map fluxScaling).sum) := by
  rw [List.sum_map_mul_left, mul_assoc]

/-! ## Every continuous source is a rate times the timestep times the flux -/

theorem micro_rate (cfg : FluxCfg) : ∃ rate, ∀ dt time,
    iceMicrometeorites { cfg with timestep := dt } time = time.map (fun t => rate * dt * fluxScaling t) := by
  refine ⟨cfg.mm_mass_rate * (if cfg.is_comet then cfg.comet_hydrated_wt_pct * cfg.comet_mass_retained
    else if cfg.impact_ice_comets then 0 else cfg.hydrated_wt_pct * cfg.impact_mass_retained), ?_⟩
  intro dt time
  unfold iceMicrometeorites
  apply List.map_congr_left
  intro t _
  simp only []
  ring

/-- Either the same exception for all timesteps and times, or a rate. -/
def Steady (f : ℝ → List ℝ → Except PyErr (List ℝ)) : Prop :=
  (∃ e, ∀ dt time, f dt time = .error e) ∨
    ∃ rate, ∀ dt time, f dt time = .ok (time.map (fun t => rate * dt * fluxScaling t))

theorem impactors_steady (cfg : FluxCfg) :
    Steady (fun dt time => smallImpactorIce { cfg with timestep := dt } time) := by
  unfold Steady smallImpactorIce smallImpactorPop iceSmallImpactors
  simp only [bind, Except.bind]
  cases PyDict.get cfg.impact_regimes "b" with
  | error e => exact .inl ⟨e, fun _ _ => rfl⟩
  | ok r =>
    obtain ⟨mind, maxd, step, slope⟩ := r
    simp only []
    cases craterSfd mind maxd step slope with
    | error e => exact .inl ⟨e, fun _ _ => rfl⟩
    | ok q =>
      obtain ⟨ds, ps⟩ := q
      refine .inr ⟨waterFrac cfg * (impactorsBrown mind maxd 1 cfg *
        (List.zipWith (· * ·) ps (ds.map (fun d => diam2vol d * cfg.impactor_density))).sum), ?_⟩
      intro dt time
      simp only []
      congr 1
      rw [List.map_map]
      apply List.map_congr_left
      intro t _
      simp only [Function.comp]
      have hb : impactorsBrown mind maxd dt { cfg with timestep := dt } = dt * impactorsBrown mind maxd 1 cfg := by
        unfold impactorsBrown cometSplit
        simp only []
        split_ifs <;> ring
      have hw : ∀ m, mass2water { cfg with timestep := dt } m = waterFrac cfg * m := by
        intro m
        exact mass2water_eq cfg m
      rw [hw, hb, zipWith_scale_left]
      ring

theorem counts_steady (cfg : FluxCfg) (regime : String) :
    Steady (fun dt time => (craterPop { cfg with timestep := dt } time regime).map (fun r => r.2.1)) := by
  unfold Steady craterPop
  simp only [bind, Except.bind]
  cases PyDict.get cfg.impact_regimes regime with
  | error e => exact .inl ⟨e, fun _ _ => rfl⟩
  | ok r =>
    obtain ⟨mind, maxd, step, slope⟩ := r
    simp only []
    cases craterSfd mind maxd step slope with
    | error e => exact .inl ⟨e, fun _ _ => rfl⟩
    | ok q =>
      refine .inr ⟨cometSplit cfg 1 * ((neukum cfg mind - neukum cfg maxd) * cfg.sa_moon), ?_⟩
      intro dt time
      change Except.ok _ = Except.ok _
      congr 1
      apply List.map_congr_left
      intro t _
      change cometSplit cfg ((neukum cfg mind - neukum cfg maxd) * cfg.sa_moon * dt * fluxScaling t) = _
      rw [cometSplit_eq]
      ring

theorem craters_steady (cfg : FluxCfg) :
    Steady (fun dt time => smallCraterIce { cfg with timestep := dt } time) := by
  unfold Steady smallCraterIce craterPop iceSmallCraters
  simp only [bind, Except.bind]
  cases PyDict.get cfg.impact_regimes "c" with
  | error e => exact .inl ⟨e, fun _ _ => rfl⟩
  | ok r =>
    obtain ⟨mind, maxd, step, slope⟩ := r
    simp only []
    cases craterSfd mind maxd step slope with
    | error e => exact .inl ⟨e, fun _ _ => rfl⟩
    | ok q =>
      obtain ⟨ds, ps⟩ := q
      simp only []
      cases diam2len cfg.toScaleCfg ds cfg.impact_speed_mean "c" with
      | error e => exact .inl ⟨e, fun _ _ => rfl⟩
      | ok lens =>
        refine .inr ⟨waterFrac cfg * (cometSplit cfg 1 * ((neukum cfg mind - neukum cfg maxd) * cfg.sa_moon) *
          (List.zipWith (· * ·) ps (lens.map (fun d => diam2vol d * cfg.impactor_density))).sum), ?_⟩
        intro dt time
        simp only []
        congr 1
        rw [List.map_map, List.map_map]
        apply List.map_congr_left
        intro t _
        simp only [Function.comp]
        have hw : ∀ m, mass2water { cfg with timestep := dt } m = waterFrac cfg * m := fun m => mass2water_eq cfg m
        have hc : cometSplit { cfg with timestep := dt } (numCraters { cfg with timestep := dt } mind maxd t) =
            cometSplit cfg 1 * ((neukum cfg mind - neukum cfg maxd) * cfg.sa_moon * dt * fluxScaling t) :=
          cometSplit_eq cfg _
        rw [hw, hc, zipWith_scale_right]
        ring

theorem steady_total {f : ℝ → List ℝ → Except PyErr (List ℝ)} (hf : Steady f) {rate : ℝ} (h1 : f 1 [0] = .ok [rate])
    {dt T : ℝ} (hdt : 0 < dt) (n : Nat) (hn : 0 < n) (hT : T = n * dt) {time out : List ℝ}
    (ht : getTimeArray T 0 dt = .ok time) (h : f dt time = .ok out) : out.sum = rate * yearsCounted dt T := by
  rcases hf with ⟨e, he⟩ | ⟨r, hr⟩
  · rw [he] at h; cases h
  · rw [hr] at h h1
    injection h1 with h1
    injection h with h
    have : rate = r := by
      simp only [List.map_cons, List.map_nil, mul_one, C42_flux_scaling.1] at h1
      exact (List.cons.inj h1).1.symm
    subst this
    rw [← h, sum_rate, run_grid hdt n hn hT ht, sum_scaling dt hdt n, ← hT]

end MoonPIES
