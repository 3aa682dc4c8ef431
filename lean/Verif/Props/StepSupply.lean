import Verif.Props.Volcanic
import Verif.Props.Solar
import Verif.Props.TimeArray
import Mathlib.Algebra.BigOperators.Intervals
import Mathlib.Algebra.Order.BigOperators.Group.Finset
import Mathlib.Algebra.Order.Floor.Semiring

/-!
# C159: what the length of the timestep does to volcanic and solar wind ice

Both supplies are a rate times the timestep, given at the older end of each step.
-/

namespace MoonPIES

set_option linter.unusedSectionVars false

variable {K : Type} [Field K] [LinearOrder K] [FloorRing K] [IsStrictOrderedRing K]

/-- The number of `k < n` with `A ≤ k < B`. -/
theorem countP_window (A B : Nat) (n : Nat) :
    (List.range n).countP (fun k => decide (A ≤ k ∧ k < B)) = min n B - min n A := by
  induction n with
  | zero => simp
  | succ n ih =>
    rw [List.range_succ, List.countP_append, ih]
    by_cases h : A ≤ n ∧ n < B
    · simp only [List.countP_cons, List.countP_nil, h, and_self, decide_true, if_true]; omega
    · have : decide (A ≤ n ∧ n < B) = false := by simpa using h
      simp only [List.countP_cons, List.countP_nil, this]
      simp; omega

/-- The steps of a run inside an epoch, counted by ceilings. -/
theorem epoch_count (start dt : K) (n : Nat) (e : K × K) (hdt : 0 < dt)
    (h2 : start - n * dt ≤ e.2) (h3 : e.2 ≤ e.1) :
    (Spec.uniformGrid start dt n).countP (fun t => decide (InEpoch e t)) =
      ⌈(start - e.2) / dt⌉₊ - ⌈(start - e.1) / dt⌉₊ := by
  unfold Spec.uniformGrid
  rw [List.countP_map]
  have hf : ((fun t => decide (InEpoch e t)) ∘ fun i : Nat => start - (i : K) * dt) =
      fun k => decide (⌈(start - e.1) / dt⌉₊ ≤ k ∧ k < ⌈(start - e.2) / dt⌉₊) := by
    funext k
    simp only [Function.comp]
    congr 1
    apply propext
    unfold InEpoch
    rw [Nat.ceil_le, Nat.lt_ceil, div_le_iff₀ hdt, lt_div_iff₀ hdt]
    constructor
    · rintro ⟨a, b⟩; exact ⟨by linarith, by linarith⟩
    · rintro ⟨a, b⟩; exact ⟨by linarith, by linarith⟩
  rw [hf, countP_window]
  have hB : ⌈(start - e.2) / dt⌉₊ ≤ n := by
    rw [Nat.ceil_le, div_le_iff₀ hdt]; linarith
  have hA : ⌈(start - e.1) / dt⌉₊ ≤ ⌈(start - e.2) / dt⌉₊ := by
    apply Nat.ceil_mono
    gcongr
  omega

/-- **C159** an epoch inside a run is given its own length to within less than one timestep,
whatever its limits, and exactly its length when that is a whole number of timesteps. -/
theorem C159_epoch (start dt : K) (n : Nat) (e : K × K) (hdt : 0 < dt) (h1 : e.1 ≤ start)
    (h2 : start - n * dt ≤ e.2) (h3 : e.2 ≤ e.1) :
    |((Spec.uniformGrid start dt n).countP (fun t => decide (InEpoch e t)) : K) * dt -
        (e.1 - e.2)| < dt ∧
      ∀ m : Nat, e.1 - e.2 = m * dt →
        (Spec.uniformGrid start dt n).countP (fun t => decide (InEpoch e t)) = m := by
  rw [epoch_count start dt n e hdt h2 h3]
  have ha0 : 0 ≤ (start - e.1) / dt := div_nonneg (by linarith) hdt.le
  have hAB : ⌈(start - e.1) / dt⌉₊ ≤ ⌈(start - e.2) / dt⌉₊ := by
    apply Nat.ceil_mono
    gcongr
  constructor
  · have a1 := Nat.le_ceil ((start - e.1) / dt)
    have a2 := Nat.ceil_lt_add_one ha0
    have b1 := Nat.le_ceil ((start - e.2) / dt)
    have b2 := Nat.ceil_lt_add_one (show 0 ≤ (start - e.2) / dt from
      div_nonneg (by linarith) hdt.le)
    rw [div_le_iff₀ hdt] at a1 b1
    rw [← sub_lt_iff_lt_add, lt_div_iff₀ hdt] at a2 b2
    rw [Nat.cast_sub hAB, abs_lt]
    constructor <;> nlinarith
  · intro m hm
    have : (start - e.2) / dt = (start - e.1) / dt + m := by
      rw [div_add' _ _ _ hdt.ne']
      congr 1
      linarith
    rw [this, Nat.ceil_add_natCast ha0]
    omega

/-- **C159** the volcanic ice of a whole run is the yearly ice times the length of each epoch
times its fraction, for every timestep of which the epochs are multiples: the timestep and the
place of the epochs on the grid do not matter. -/
theorem C159_head (cfg : HeadCfg K) (start : K) (n a b : Nat) (hn : 0 < n)
    (hdt : 0 < cfg.timestep) (hs : start = n * cfg.timestep)
    (he : cfg.volc_early.1 - cfg.volc_early.2 = a * cfg.timestep)
    (hl : cfg.volc_late.1 - cfg.volc_late.2 = b * cfg.timestep)
    (he1 : cfg.volc_early.1 ≤ start) (he0 : 0 ≤ cfg.volc_early.2)
    (hl1 : cfg.volc_late.1 ≤ start) (hl0 : 0 ≤ cfg.volc_late.2)
    (hd : cfg.volc_late.1 ≤ cfg.volc_early.2 ∨ cfg.volc_early.1 ≤ cfg.volc_late.2) :
    ∃ time, getTimeArray start 0 cfg.timestep = .ok time ∧
      (volcanicHead cfg time).sum = headIcePerYear cfg *
        (cfg.volc_early_pct * (cfg.volc_early.1 - cfg.volc_early.2) +
          cfg.volc_late_pct * (cfg.volc_late.1 - cfg.volc_late.2)) := by
  refine ⟨_, C19_uniform_partial start cfg.timestep n hn hdt hs, ?_⟩
  have ha : 0 ≤ (a : K) * cfg.timestep := by positivity
  have hb : 0 ≤ (b : K) * cfg.timestep := by positivity
  rw [C45_total_disjoint cfg _ hd,
    (C159_epoch start cfg.timestep n cfg.volc_early hdt he1 (by linarith) (by linarith)).2 a he,
    (C159_epoch start cfg.timestep n cfg.volc_late hdt hl1 (by linarith) (by linarith)).2 b hl,
    he, hl]
  ring

/-- **C159** epochs that are no multiple of the timestep: the ice of the run is off by less than one
timestep of each epoch. -/
theorem C159_head_error (cfg : HeadCfg K) (start : K) (n : Nat) (hn : 0 < n)
    (hdt : 0 < cfg.timestep) (hs : start = n * cfg.timestep)
    (he : cfg.volc_early.2 ≤ cfg.volc_early.1) (hl : cfg.volc_late.2 ≤ cfg.volc_late.1)
    (he1 : cfg.volc_early.1 ≤ start) (he0 : 0 ≤ cfg.volc_early.2)
    (hl1 : cfg.volc_late.1 ≤ start) (hl0 : 0 ≤ cfg.volc_late.2)
    (hd : cfg.volc_late.1 ≤ cfg.volc_early.2 ∨ cfg.volc_early.1 ≤ cfg.volc_late.2)
    (hice : 0 < headIcePerYear cfg) (hp : 0 < cfg.volc_early_pct) (hq : 0 < cfg.volc_late_pct) :
    ∃ time, getTimeArray start 0 cfg.timestep = .ok time ∧
      |(volcanicHead cfg time).sum - headIcePerYear cfg *
        (cfg.volc_early_pct * (cfg.volc_early.1 - cfg.volc_early.2) +
          cfg.volc_late_pct * (cfg.volc_late.1 - cfg.volc_late.2))| <
        headIcePerYear cfg * (cfg.volc_early_pct + cfg.volc_late_pct) * cfg.timestep := by
  refine ⟨_, C19_uniform_partial start cfg.timestep n hn hdt hs, ?_⟩
  rw [C45_total_disjoint cfg _ hd]
  obtain ⟨a1, a2⟩ := abs_lt.1
    (C159_epoch start cfg.timestep n cfg.volc_early hdt he1 (by linarith) he).1
  obtain ⟨b1, b2⟩ := abs_lt.1
    (C159_epoch start cfg.timestep n cfg.volc_late hdt hl1 (by linarith) hl).1
  have p := mul_pos hice hp
  have q := mul_pos hice hq
  have a1' := mul_lt_mul_of_pos_left a1 p
  have a2' := mul_lt_mul_of_pos_left a2 p
  have b1' := mul_lt_mul_of_pos_left b1 q
  have b2' := mul_lt_mul_of_pos_left b2 q
  rw [abs_lt]
  constructor <;> linarith

/-- **C159** the fractions are not shares of a total: `volc_total_vol` is a yearly volume, so, when there is no
late epoch, an early epoch inside the run carries the fraction `volc_early_pct` of the volume erupted in `span` years exactly when it
is `span` years long. -/
theorem C159_share (cfg : HeadCfg K) (start span : K) (n a : Nat) (hn : 0 < n)
    (hdt : 0 < cfg.timestep) (hs : start = n * cfg.timestep)
    (he : cfg.volc_early.1 - cfg.volc_early.2 = a * cfg.timestep)
    (he1 : cfg.volc_early.1 ≤ start) (he0 : 0 ≤ cfg.volc_early.2)
    (hl : cfg.volc_late.1 ≤ cfg.volc_late.2)
    (hice : headIcePerYear cfg ≠ 0) (hp : cfg.volc_early_pct ≠ 0) :
    ∃ time, getTimeArray start 0 cfg.timestep = .ok time ∧
      ((volcanicHead cfg time).sum = cfg.volc_early_pct * (headIcePerYear cfg * span) ↔
        cfg.volc_early.1 - cfg.volc_early.2 = span) := by
  refine ⟨_, C19_uniform_partial start cfg.timestep n hn hdt hs, ?_⟩
  have ha : 0 ≤ (a : K) * cfg.timestep := by positivity
  have hno : ∀ t, ¬ InEpoch cfg.volc_late t := fun t h =>
    absurd (lt_of_lt_of_le h.1 h.2) (not_lt.2 hl)
  rw [C45_total]
  simp only [hno, not_false_iff, and_true, decide_false]
  rw [(C159_epoch start cfg.timestep n cfg.volc_early hdt he1 (by linarith) (by linarith)).2 a he,
    he]
  have h0 : (List.countP (fun _ : K => false) (Spec.uniformGrid start cfg.timestep n) : K) = 0 := by
    simp
  rw [h0]
  constructor
  · intro h
    have h' : cfg.volc_early_pct * headIcePerYear cfg * (a * cfg.timestep - span) = 0 := by
      linear_combination h
    rcases mul_eq_zero.1 h' with h' | h'
    · exact absurd h' (mul_ne_zero hp hice)
    · linarith
  · intro h
    rw [← h]; ring

/-- **C159** a constant sun: the solar wind ice of the run is the rate times the seconds of the run, for
every timestep that divides it. -/
theorem C159_constant_sun (cfg : SolarCfg K) (lum : List (K × K)) (start r : K) (n : Nat) (hn : 0 < n)
    (hdt : 0 < cfg.timestep) (hs : start = n * cfg.timestep)
    (hr : RateOf cfg.solar_wind_mode r) (hf : cfg.faint_young_sun = false) :
    ∃ time out, getTimeArray start 0 cfg.timestep = .ok time ∧
      solarWindMass cfg lum time = .ok out ∧ out.sum = r * (yearSeconds * start) := by
  refine ⟨_, _, C19_uniform_partial start cfg.timestep n hn hdt hs,
    C47_constant_sun cfg lum _ r hr hf, ?_⟩
  rw [List.sum_replicate, hs]
  simp only [Spec.uniformGrid, List.length_map, List.length_range, nsmul_eq_mul]
  ring

/-! ### A rate that grows along the run -/

/-- `f` times the timestep, summed over the steps of a run. -/
def stepSum (f : K → K) (start dt : K) (n : Nat) : K :=
  ∑ k ∈ Finset.range n, f (start - k * dt) * dt

theorem stepSum_refine (f : K → K) (hf : ∀ s t, s ≤ t → f t ≤ f s) (start dt : K) (hdt : 0 ≤ dt)
    (m : Nat) (hm : 0 < m) (n : Nat) :
    stepSum f start dt n ≤ stepSum f start (dt / m) (n * m) ∧
      stepSum f start (dt / m) (n * m) ≤
        stepSum f start dt n + dt * (f (start - n * dt) - f start) := by
  have hm0 : (0 : K) < m := by exact_mod_cast hm
  have hd : 0 ≤ dt / m := div_nonneg hdt hm0.le
  induction n with
  | zero => simp [stepSum]
  | succ n ih =>
    have hsplit : stepSum f start (dt / m) ((n + 1) * m) = stepSum f start (dt / m) (n * m) +
        ∑ j ∈ Finset.range m, f (start - (n : K) * dt - j * (dt / m)) * (dt / m) := by
      unfold stepSum
      rw [Nat.succ_mul, Finset.sum_range_add]
      congr 1
      apply Finset.sum_congr rfl
      intro j _
      congr 2
      push_cast
      field_simp
      ring
    have hcoarse : stepSum f start dt (n + 1) =
        stepSum f start dt n + f (start - (n : K) * dt) * dt := by
      unfold stepSum
      rw [Finset.sum_range_succ]
    have hcard : ∀ c : K, ∑ _j ∈ Finset.range m, c * (dt / m) = c * dt := by
      intro c
      rw [Finset.sum_const, Finset.card_range, nsmul_eq_mul]
      field_simp
    have hlow : f (start - (n : K) * dt) * dt ≤
        ∑ j ∈ Finset.range m, f (start - (n : K) * dt - j * (dt / m)) * (dt / m) := by
      rw [← hcard (f (start - (n : K) * dt))]
      apply Finset.sum_le_sum
      intro j _
      apply mul_le_mul_of_nonneg_right (hf _ _ _) hd
      have : 0 ≤ (j : K) * (dt / m) := by positivity
      linarith
    have hup : ∑ j ∈ Finset.range m, f (start - (n : K) * dt - j * (dt / m)) * (dt / m) ≤
        f (start - ((n + 1 : Nat) : K) * dt) * dt := by
      rw [← hcard (f (start - ((n + 1 : Nat) : K) * dt))]
      apply Finset.sum_le_sum
      intro j hj
      apply mul_le_mul_of_nonneg_right (hf _ _ _) hd
      have hj' : (j : K) ≤ m := by exact_mod_cast (Finset.mem_range.1 hj).le
      have : (j : K) * (dt / m) ≤ m * (dt / m) := mul_le_mul_of_nonneg_right hj' hd
      have e : (m : K) * (dt / m) = dt := by field_simp
      push_cast
      linarith
    rw [hsplit, hcoarse]
    constructor
    · linarith [ih.1]
    · have := ih.2
      linarith

/-- Two timesteps dividing the same run. -/
theorem stepSum_compare (f : K → K) (hf : ∀ s t, s ≤ t → f t ≤ f s) (start dt dt' : K) (n n' : Nat)
    (hn : 0 < n) (hn' : 0 < n') (hdt : 0 ≤ dt) (hdt' : 0 ≤ dt')
    (h : start = n * dt) (h' : start = n' * dt') :
    |stepSum f start dt n - stepSum f start dt' n'| ≤ max dt dt' * (f 0 - f start) := by
  have hn0 : (n : K) ≠ 0 := by exact_mod_cast hn.ne'
  have hn0' : (n' : K) ≠ 0 := by exact_mod_cast hn'.ne'
  obtain ⟨a1, a2⟩ := stepSum_refine f hf start dt hdt n' hn' n
  obtain ⟨b1, b2⟩ := stepSum_refine f hf start dt' hdt' n hn n'
  have e : dt / n' = dt' / n := by
    field_simp
    linarith
  rw [Nat.mul_comm n' n, ← e] at b1 b2
  have s0 : start - n * dt = 0 := by linarith
  have s0' : start - n' * dt' = 0 := by linarith
  rw [s0] at a2
  rw [s0'] at b2
  have hst : 0 ≤ start := by rw [h]; positivity
  have hfd : 0 ≤ f 0 - f start := by linarith [hf 0 start hst]
  have m1 := mul_le_mul_of_nonneg_right (le_max_left dt dt') hfd
  have m2 := mul_le_mul_of_nonneg_right (le_max_right dt dt') hfd
  rw [abs_le]
  constructor <;> linarith

/-- The mass of every step, as one function of time. -/
theorem solarWindMass_function (lum : List (K × K)) (hne : lum ≠ [])
    (hmono : lum.Pairwise (fun a b => a.2 ≤ b.2)) :
    ∃ f : K → K, (∀ s t, s ≤ t → f t ≤ f s) ∧
      (∀ t, npInterp (-t) (lum.map (fun p => (-p.1, p.2))) = some (f t)) ∧
      ∀ (cfg : SolarCfg K) (r : K), RateOf cfg.solar_wind_mode r → cfg.faint_young_sun = true →
        ∀ time, solarWindMass cfg lum time =
          .ok (time.map (fun t => r * (yearSeconds * cfg.timestep) * f t)) := by
  have hm : KnotsMono (lum.map (fun p => (-p.1, p.2))) := by
    unfold KnotsMono; rw [List.pairwise_map]; exact hmono
  have hsome : ∀ t : K, ∃ l, npInterp (-t) (lum.map (fun p => (-p.1, p.2))) = some l := by
    intro t
    cases lum with
    | nil => exact absurd rfl hne
    | cons p rest => exact ⟨_, rfl⟩
  choose f hf using hsome
  refine ⟨f, fun s t hst => npInterp_mono _ _ _ _ _ (neg_le_neg hst) hm (hf t) (hf s), hf, ?_⟩
  intro cfg r hr hfy time
  unfold solarWindMass
  rw [solarRate_of _ _ hr]
  simp only [bind, Except.bind]
  rw [if_pos hfy]
  induction time with
  | nil => rfl
  | cons t time ih =>
    rw [List.mapM_cons, ih, hf]
    simp only [bind, Except.bind, pure, Except.pure, List.map_cons]
    congr 2
    unfold yearSeconds
    ring

theorem sum_grid_stepSum (f : K → K) (c start dt : K) (n : Nat) :
    ((Spec.uniformGrid start dt n).map (fun t => c * dt * f t)).sum = c * stepSum f start dt n := by
  unfold Spec.uniformGrid stepSum
  rw [List.map_map]
  induction n with
  | zero => simp
  | succ n ih =>
    rw [List.range_succ, List.map_append, List.sum_append, ih, Finset.sum_range_succ]
    simp only [List.map_cons, List.map_nil, List.sum_cons, List.sum_nil, Function.comp]
    ring

/-- **C159** a brightening sun: two runs over the same years that differ in their timestep differ in solar wind
ice by at most the longer timestep of the supply gained between the first time and the present; and the
finer timestep of a refined run never gives less. -/
theorem C159_faint_sun (cfg cfg' : SolarCfg K) (lum : List (K × K)) (start r : K) (n n' : Nat)
    (hn : 0 < n) (hn' : 0 < n') (hdt : 0 < cfg.timestep) (hdt' : 0 < cfg'.timestep)
    (hs : start = n * cfg.timestep) (hs' : start = n' * cfg'.timestep)
    (hr : RateOf cfg.solar_wind_mode r) (hr' : RateOf cfg'.solar_wind_mode r)
    (hf : cfg.faint_young_sun = true) (hf' : cfg'.faint_young_sun = true) (hne : lum ≠ [])
    (hmono : lum.Pairwise (fun a b => a.2 ≤ b.2)) :
    ∃ time time' out out' l0 l1,
      getTimeArray start 0 cfg.timestep = .ok time ∧
      getTimeArray start 0 cfg'.timestep = .ok time' ∧
      solarWindMass cfg lum time = .ok out ∧ solarWindMass cfg' lum time' = .ok out' ∧
      npInterp (-start) (lum.map (fun p => (-p.1, p.2))) = some l0 ∧
      npInterp 0 (lum.map (fun p => (-p.1, p.2))) = some l1 ∧
      |out.sum - out'.sum| ≤ r * (yearSeconds * max cfg.timestep cfg'.timestep) * (l1 - l0) ∧
      (n ∣ n' → out.sum ≤ out'.sum) := by
  obtain ⟨f, hanti, hfun, hmass⟩ := solarWindMass_function lum hne hmono
  have h0 := hfun 0
  rw [neg_zero] at h0
  have hr0 : 0 ≤ r := by
    rcases hr with ⟨_, h⟩ | ⟨_, h⟩ <;> linarith
  have hys : (0 : K) ≤ r * yearSeconds := mul_nonneg hr0 (by unfold yearSeconds; norm_num)
  have e1 := sum_grid_stepSum f (r * yearSeconds) start cfg.timestep n
  have e2 := sum_grid_stepSum f (r * yearSeconds) start cfg'.timestep n'
  simp only [mul_assoc] at e1 e2
  refine ⟨_, _, _, _, _, _, C19_uniform_partial start cfg.timestep n hn hdt hs,
    C19_uniform_partial start cfg'.timestep n' hn' hdt' hs', hmass cfg r hr hf _,
    hmass cfg' r hr' hf' _, hfun start, h0, ?_, ?_⟩
  · simp only [mul_assoc]
    rw [e1, e2]
    have hc := mul_le_mul_of_nonneg_left
      (stepSum_compare f hanti start _ _ n n' hn hn' hdt.le hdt'.le hs hs') hys
    have ha := abs_mul (r * yearSeconds)
      (stepSum f start cfg.timestep n - stepSum f start cfg'.timestep n')
    rw [abs_of_nonneg hys] at ha
    rw [← ha] at hc
    have e3 : r * yearSeconds * (stepSum f start cfg.timestep n - stepSum f start cfg'.timestep n') =
        r * (yearSeconds * stepSum f start cfg.timestep n) -
          r * (yearSeconds * stepSum f start cfg'.timestep n') := by ring
    rw [e3] at hc
    linarith
  · rintro ⟨m, rfl⟩
    simp only [mul_assoc]
    rw [e1, e2]
    have hm : 0 < m := Nat.pos_of_mul_pos_left hn'
    have hm0 : (m : K) ≠ 0 := by exact_mod_cast hm.ne'
    have hn0 : (n : K) ≠ 0 := by exact_mod_cast hn.ne'
    have e : cfg'.timestep = cfg.timestep / m := by
      rw [hs] at hs'
      push_cast at hs'
      rw [eq_div_iff hm0]
      apply mul_left_cancel₀ hn0
      linarith
    have := (stepSum_refine f hanti start cfg.timestep hdt.le m hm n).1
    rw [e]
    have := mul_le_mul_of_nonneg_left this hys
    linarith

/-! ### Examples -/

/-- The default epochs moved off the grid by a tenth of a step, in 10 Myr steps: the ice of 2 Gyr. -/
example : ∃ time, getTimeArray (4250000000 : ℚ) 0 10000000 = .ok time ∧
    (volcanicHead (⟨10000000, 3000, 10, 3 / 4, 1 / 4, (4001000000, 3001000000),
      (3001000000, 2001000000), 10000000⟩ : HeadCfg ℚ) time).sum =
      10000000 * 3000 * (10 / 1000000) * 1000000000 := by
  obtain ⟨time, h1, h2⟩ := C159_head (⟨10000000, 3000, 10, 3 / 4, 1 / 4, (4001000000, 3001000000),
      (3001000000, 2001000000), 10000000⟩ : HeadCfg ℚ) 4250000000 425 100 100 (by norm_num)
    (by norm_num) (by norm_num) (by norm_num) (by norm_num) (by norm_num) (by norm_num)
    (by norm_num) (by norm_num) (Or.inl (by norm_num))
  exact ⟨time, h1, by rw [h2]; unfold headIcePerYear; norm_num⟩

/-- An epoch shorter than a step, between two times: no ice at all. -/
example : (volcanicHead (⟨1, 1, 1000000, 1, 1, (9, 6), (4, 1), 5⟩ : HeadCfg ℚ) [10, 5]) = [0, 0] := by
  decide +kernel

/-- The bound holds there. -/
example : ∃ time, getTimeArray (10 : ℚ) 0 5 = .ok time ∧
    |(volcanicHead (⟨1, 1, 1000000, 1, 1, (9, 6), (4, 1), 5⟩ : HeadCfg ℚ) time).sum - 6| < 10 := by
  obtain ⟨time, h1, h2⟩ := C159_head_error (⟨1, 1, 1000000, 1, 1, (9, 6), (4, 1), 5⟩ : HeadCfg ℚ)
    10 2 (by norm_num) (by norm_num) (by norm_num) (by norm_num) (by norm_num) (by norm_num)
    (by norm_num) (by norm_num) (by norm_num) (Or.inl (by norm_num))
    (by unfold headIcePerYear; norm_num) (by norm_num) (by norm_num)
  refine ⟨time, h1, ?_⟩
  have e : headIcePerYear (⟨1, 1, 1000000, 1, 1, (9, 6), (4, 1), 5⟩ : HeadCfg ℚ) = 1 := by
    unfold headIcePerYear; norm_num
  rw [e] at h2
  norm_num at h2
  exact h2

/-- A half as long early epoch with the default fraction does not carry that fraction of the ice of 1 Gyr. -/
example : ∃ time, getTimeArray (4250000000 : ℚ) 0 10000000 = .ok time ∧
    (volcanicHead (⟨10000000, 3000, 10, 3 / 4, 1 / 4, (4000000000, 3500000000),
      (0, 0), 10000000⟩ : HeadCfg ℚ) time).sum ≠ 3 / 4 *
      (headIcePerYear (⟨10000000, 3000, 10, 3 / 4, 1 / 4, (4000000000, 3500000000),
      (0, 0), 10000000⟩ : HeadCfg ℚ) * 1000000000) := by
  obtain ⟨time, h1, h2⟩ := C159_share (⟨10000000, 3000, 10, 3 / 4, 1 / 4, (4000000000, 3500000000),
      (0, 0), 10000000⟩ : HeadCfg ℚ) 4250000000 1000000000 425 50 (by norm_num) (by norm_num)
      (by norm_num) (by norm_num) (by norm_num) (by norm_num) (by norm_num)
      (by unfold headIcePerYear; norm_num) (by norm_num)
  refine ⟨time, h1, fun h => ?_⟩
  have := h2.1 h
  norm_num at this

example : ∃ time out, getTimeArray (4250000000 : ℚ) 0 10000000 = .ok time ∧
    solarWindMass (⟨⟨"H2O", 1, 1, 1, 1⟩, true, "Benna", false, 10000000⟩ : SolarCfg ℚ) [] time = .ok out ∧
    out.sum = 1 / 500 * (yearSeconds * 4250000000) :=
  C159_constant_sun (⟨⟨"H2O", 1, 1, 1, 1⟩, true, "Benna", false, 10000000⟩ : SolarCfg ℚ) [] 4250000000
    (1 / 500) 425 (by norm_num) (by norm_num) (by norm_num) (Or.inl ⟨by decide +kernel, by norm_num⟩) rfl

/-- One step of 4 years against two of 2 on a sun that doubles: 4 and 5 years at half the present supply; the
bound is 4 years at half of it. -/
example : solarWindMass (⟨⟨"H2O", 1, 1, 1, 1⟩, true, "Benna", true, 4⟩ : SolarCfg ℚ)
      [(4, 1 / 2), (0, 1)] [4] = .ok [4 * 31536] ∧
    solarWindMass (⟨⟨"H2O", 1, 1, 1, 1⟩, true, "Benna", true, 2⟩ : SolarCfg ℚ)
      [(4, 1 / 2), (0, 1)] [4, 2] = .ok [2 * 31536, 3 * 31536] := by decide +kernel

example : ∃ time time' out out' l0 l1, getTimeArray (4 : ℚ) 0 4 = .ok time ∧
    getTimeArray (4 : ℚ) 0 2 = .ok time' ∧
    solarWindMass (⟨⟨"H2O", 1, 1, 1, 1⟩, true, "Benna", true, 4⟩ : SolarCfg ℚ)
      [(4, 1 / 2), (0, 1)] time = .ok out ∧
    solarWindMass (⟨⟨"H2O", 1, 1, 1, 1⟩, true, "Benna", true, 2⟩ : SolarCfg ℚ)
      [(4, 1 / 2), (0, 1)] time' = .ok out' ∧
    npInterp (-4 : ℚ) ([(4, 1 / 2), (0, 1)].map (fun p => (-p.1, p.2))) = some l0 ∧
    npInterp (0 : ℚ) ([(4, 1 / 2), (0, 1)].map (fun p => (-p.1, p.2))) = some l1 ∧
    |out.sum - out'.sum| ≤ 1 / 500 * (yearSeconds * max 4 2) * (l1 - l0) ∧
    (1 ∣ 2 → out.sum ≤ out'.sum) :=
  C159_faint_sun (⟨⟨"H2O", 1, 1, 1, 1⟩, true, "Benna", true, 4⟩ : SolarCfg ℚ)
    ⟨⟨"H2O", 1, 1, 1, 1⟩, true, "Benna", true, 2⟩ [(4, 1 / 2), (0, 1)] 4 (1 / 500) 1 2
    (by norm_num) (by norm_num) (by norm_num) (by norm_num) (by norm_num) (by norm_num)
    (Or.inl ⟨by decide +kernel, by norm_num⟩) (Or.inl ⟨by decide +kernel, by norm_num⟩) rfl rfl
    (by simp) (by norm_num)

end MoonPIES
