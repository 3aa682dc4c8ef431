import Verif.Model.Flux
import Verif.Lemmas.Neukum
import Verif.Props.Prieur
import Verif.Props.Sfd
import Verif.Props.Transient
import Mathlib.Analysis.SpecialFunctions.Pow.Real
import Mathlib.Analysis.SpecialFunctions.ExpDeriv
import Mathlib.Tactic.FieldSimp
import Mathlib.Tactic.Ring
import Mathlib.Tactic.Linarith
import Mathlib.Tactic.NormNum
import Mathlib.Tactic.Positivity

/-!
# C42: impact flux and continuous delivery
-/

namespace MoonPIES

open Real

theorem impactFlux_pos (t : ℝ) : 0 < impactFlux t := by
  unfold impactFlux
  have := exp_pos (6.93 * (t * 1e-9))
  positivity

/-- **C42** the scaling is 1 today, strictly increasing with age, at least 1 in the past
and positive always. -/
theorem C42_flux_scaling :
    fluxScaling 0 = 1 ∧ StrictMono fluxScaling ∧ (∀ t, 0 ≤ t → 1 ≤ fluxScaling t) ∧
      ∀ t, 0 < fluxScaling t := by
  have h0 : fluxScaling 0 = 1 := div_self (impactFlux_pos 0).ne'
  have hm : StrictMono fluxScaling := by
    intro s t hst
    unfold fluxScaling
    apply div_lt_div_of_pos_right _ (impactFlux_pos 0)
    unfold impactFlux
    have : exp (6.93 * (s * 1e-9)) < exp (6.93 * (t * 1e-9)) := by
      apply exp_lt_exp.2; linarith
    simp only []
    linarith
  exact ⟨h0, hm, fun t ht => by rw [← h0]; exact hm.monotone ht,
    fun t => div_pos (impactFlux_pos t) (impactFlux_pos 0)⟩

/-- Spec: craters of 1 km per square kilometre on a surface of age `T` in Ga (equation 1 of
Ivanov 2008, cited at moonpies.py:2181). -/
noncomputable def Spec.ivanovCount (T : ℝ) : ℝ := 5.44e-14 * (exp (6.93 * T) - 1) + 8.38e-4 * T

/-- **C42** the flux is the rate, per year, at which a surface collects Ivanov's craters, and the
scaling is this rate over the rate of today. -/
theorem C42_ivanov (t : ℝ) :
    HasDerivAt (fun t => Spec.ivanovCount (t * 1e-9)) (impactFlux t) t ∧
      fluxScaling t = (6.93 * 5.44e-14 * exp (6.93 * (t * 1e-9)) + 8.38e-4) /
        (6.93 * 5.44e-14 + 8.38e-4) := by
  constructor
  · have h1 : HasDerivAt (fun t : ℝ => t * 1e-9) (1e-9) t := hasDerivAt_mul_const _
    have h2 : HasDerivAt (fun t : ℝ => 6.93 * (t * 1e-9)) (6.93 * 1e-9) t := h1.const_mul _
    have h3 := (((h2.exp).sub_const 1).const_mul (5.44e-14 : ℝ)).add (h1.const_mul (8.38e-4 : ℝ))
    refine (h3.congr_deriv ?_)
    unfold impactFlux
    ring
  · unfold fluxScaling impactFlux
    simp only [zero_mul, mul_zero, exp_zero, mul_one]
    rw [mul_div_mul_right _ _ (by norm_num)]

/-- Spec: a delivery column follows the flux: some non-negative supply of today, times the
scaling of each time. -/
def FollowsFlux (today : ℝ) (time out : List ℝ) : Prop :=
  out.length = time.length ∧
    ∀ (i : Nat) t, time[i]? = some t → out[i]? = some (today * fluxScaling t)

/-- **C42** such a column never increases towards the present and never falls below
today's supply. -/
theorem C42_non_increasing (today : ℝ) (time out : List ℝ) (h : FollowsFlux today time out)
    (h0 : 0 ≤ today) (hdesc : time.Pairwise (· ≥ ·)) (hpast : ∀ t ∈ time, 0 ≤ t) :
    out.Pairwise (· ≥ ·) ∧ ∀ x ∈ out, today ≤ x := by
  have e : out = time.map (fun t => today * fluxScaling t) := by
    apply List.ext_getElem?
    intro i
    rw [List.getElem?_map]
    cases ht : time[i]? with
    | none =>
      rw [List.getElem?_eq_none_iff] at ht
      simp [h.1, ht]
    | some t => rw [h.2 i t ht]; rfl
  rw [e]
  constructor
  · rw [List.pairwise_map]
    exact hdesc.imp (fun hab => mul_le_mul_of_nonneg_left (C42_flux_scaling.2.1.monotone hab) h0)
  · intro x hx
    obtain ⟨t, ht, rfl⟩ := List.mem_map.1 hx
    have := C42_flux_scaling.2.2.1 t (hpast t ht)
    nlinarith

theorem followsFlux_map (today : ℝ) (time : List ℝ) :
    FollowsFlux today time (time.map (fun t => today * fluxScaling t)) :=
  ⟨by simp, fun i t h => by rw [List.getElem?_map, h]; rfl⟩

/-- Spec: non-negative masses, fractions and periods. -/
structure NonnegCfg (cfg : FluxCfg) : Prop where
  mm : 0 ≤ cfg.mm_mass_rate
  chw : 0 ≤ cfg.comet_hydrated_wt_pct
  cmr : 0 ≤ cfg.comet_mass_retained
  hw : 0 ≤ cfg.hydrated_wt_pct
  imr : 0 ≤ cfg.impact_mass_retained
  cf : 0 ≤ cfg.ctype_frac
  ch : 0 ≤ cfg.ctype_hydrated
  caf : 0 ≤ cfg.comet_ast_frac
  caf1 : cfg.comet_ast_frac ≤ 1
  ts : 0 ≤ cfg.timestep
  d0 : 0 ≤ cfg.brown_d0
  em : 0 ≤ cfg.earth_moon_ratio
  sa : 0 ≤ cfg.sa_moon
  rho : 0 ≤ cfg.impactor_density

/-- **C42** micrometeorites. -/
theorem C42_micrometeorites (cfg : FluxCfg) (time : List ℝ) :
    FollowsFlux (cfg.mm_mass_rate * cfg.timestep *
        (if cfg.is_comet then cfg.comet_hydrated_wt_pct * cfg.comet_mass_retained
          else if cfg.impact_ice_comets then 0
          else cfg.hydrated_wt_pct * cfg.impact_mass_retained)) time (iceMicrometeorites cfg time) := by
  have : iceMicrometeorites cfg time = time.map (fun t => (cfg.mm_mass_rate * cfg.timestep *
        (if cfg.is_comet then cfg.comet_hydrated_wt_pct * cfg.comet_mass_retained
          else if cfg.impact_ice_comets then 0
          else cfg.hydrated_wt_pct * cfg.impact_mass_retained)) * fluxScaling t) := by
    unfold iceMicrometeorites
    apply List.map_congr_left
    intro t _
    simp only []
    ring
  rw [this]
  exact followsFlux_map _ _

theorem C42_micrometeorites_nonneg (cfg : FluxCfg) (h : NonnegCfg cfg) :
    0 ≤ cfg.mm_mass_rate * cfg.timestep *
        (if cfg.is_comet then cfg.comet_hydrated_wt_pct * cfg.comet_mass_retained
          else if cfg.impact_ice_comets then 0
          else cfg.hydrated_wt_pct * cfg.impact_mass_retained) := by
  apply mul_nonneg (mul_nonneg h.mm h.ts)
  split_ifs
  · exact mul_nonneg h.chw h.cmr
  · exact le_refl _
  · exact mul_nonneg h.hw h.imr

/-- Spec: the water fraction of impactor mass. -/
noncomputable def waterFrac (cfg : FluxCfg) : ℝ :=
  if cfg.is_comet then cfg.comet_hydrated_wt_pct * cfg.comet_mass_retained
  else cfg.ctype_frac * cfg.ctype_hydrated * cfg.hydrated_wt_pct * cfg.impact_mass_retained

theorem mass2water_eq (cfg : FluxCfg) (m : ℝ) : mass2water cfg m = waterFrac cfg * m := by
  unfold mass2water waterFrac
  split_ifs <;> ring

theorem waterFrac_nonneg (cfg : FluxCfg) (h : NonnegCfg cfg) : 0 ≤ waterFrac cfg := by
  unfold waterFrac
  have := h.chw; have := h.cmr; have := h.hw; have := h.imr; have := h.cf; have := h.ch
  split_ifs <;> positivity

theorem zipWith_scale_left (n : ℝ) (ps ms : List ℝ) :
    (List.zipWith (· * ·) (ps.map (fun p => n * p)) ms).sum =
      n * (List.zipWith (· * ·) ps ms).sum := by
  induction ps generalizing ms with
  | nil => simp
  | cons p ps ih =>
    cases ms with
    | nil => simp
    | cons m ms => simp only [List.map_cons, List.zipWith_cons_cons, List.sum_cons, ih]; ring

theorem zipWith_scale_right (n : ℝ) (ps ms : List ℝ) :
    (List.zipWith (· * ·) ms (ps.map (fun p => n * p))).sum =
      n * (List.zipWith (· * ·) ps ms).sum := by
  induction ps generalizing ms with
  | nil => simp
  | cons p ps ih =>
    cases ms with
    | nil => simp
    | cons m ms => simp only [List.map_cons, List.zipWith_cons_cons, List.sum_cons, ih]; ring

theorem zipWith_sum_nonneg (ps ms : List ℝ) (hp : ∀ p ∈ ps, 0 ≤ p) (hm : ∀ m ∈ ms, 0 ≤ m) :
    0 ≤ (List.zipWith (· * ·) ps ms).sum := by
  induction ps generalizing ms with
  | nil => simp
  | cons p ps ih =>
    cases ms with
    | nil => simp
    | cons m ms =>
      simp only [List.zipWith_cons_cons, List.sum_cons]
      have h1 := ih ms (fun q hq => hp q (by simp [hq])) (fun q hq => hm q (by simp [hq]))
      have h2 := mul_nonneg (hp p (by simp)) (hm m (by simp))
      linarith

theorem diam2vol_nonneg (d : ℝ) (h : 0 ≤ d) : 0 ≤ diam2vol d := by
  unfold diam2vol
  have := pi_pos
  positivity

theorem cometSplit_eq (cfg : FluxCfg) (n : ℝ) : cometSplit cfg n = cometSplit cfg 1 * n := by
  unfold cometSplit
  split_ifs <;> ring

theorem cometSplit_nonneg (cfg : FluxCfg) (h : NonnegCfg cfg) (n : ℝ) (hn : 0 ≤ n) :
    0 ≤ cometSplit cfg n := by
  unfold cometSplit
  have := h.caf; have := h.caf1
  split_ifs
  · positivity
  · exact mul_nonneg hn (by linarith)
  · exact hn

/-- **C42** Brown's count between two sizes is not negative. -/
theorem C42_brown_nonneg (cfg : FluxCfg) (h : NonnegCfg cfg) (mind maxd ts : ℝ) (h0 : 0 < mind)
    (h1 : mind ≤ maxd) (hts : 0 ≤ ts) : 0 ≤ impactorsBrown mind maxd ts cfg := by
  unfold impactorsBrown
  apply cometSplit_nonneg cfg h
  apply div_nonneg (mul_nonneg _ hts) h.em
  have hl : logb 10 mind ≤ logb 10 maxd := logb_le_logb_of_le (by norm_num) h0 h1
  have : (10 : ℝ) ^ (cfg.brown_c0 - cfg.brown_d0 * logb 10 maxd) ≤
      10 ^ (cfg.brown_c0 - cfg.brown_d0 * logb 10 mind) := by
    apply rpow_le_rpow_of_exponent_le (by norm_num)
    have := mul_le_mul_of_nonneg_left hl h.d0
    linarith
  linarith

/-- **C42** small impactors: the ice of each step is today's supply times the scaling. -/
theorem C42_small_impactors (cfg : FluxCfg) (h : NonnegCfg cfg) (mind maxd step slope : ℝ)
    (hreg : PyDict.get cfg.impact_regimes "b" = .ok (mind, maxd, step, slope)) (h0 : 0 < mind)
    (hs : 0 < step) (h1 : step ≤ maxd - mind) :
    ∃ today, 0 ≤ today ∧ ∀ time, ∃ out, smallImpactorIce cfg time = .ok out ∧
      FollowsFlux today time out := by
  obtain ⟨ds, ps, hh, hc, h2, hpl, -, -, hasc, hst, -, hd, hp, -, -⟩ :=
    C41_crater_sfd_partial mind maxd step slope h0 hs h1
  have hdpos : ∀ d ∈ ds, 0 < d := by
    intro d hdm
    obtain ⟨i, hi⟩ := List.mem_iff_getElem?.1 hdm
    rw [hd i d hi]
    have : 0 ≤ hh := by linarith [hst.1]
    positivity
  have hn := C42_brown_nonneg cfg h mind maxd cfg.timestep h0 (by linarith) h.ts
  refine ⟨waterFrac cfg * (impactorsBrown mind maxd cfg.timestep cfg *
    (List.zipWith (· * ·) ps (ds.map (fun d => diam2vol d * cfg.impactor_density))).sum), ?_, ?_⟩
  · apply mul_nonneg (waterFrac_nonneg cfg h) (mul_nonneg hn _)
    apply zipWith_sum_nonneg
    · exact fun p hpm => (hp p hpm).le
    · intro m hm
      obtain ⟨d, hdm, rfl⟩ := List.mem_map.1 hm
      exact mul_nonneg (diam2vol_nonneg d (hdpos d hdm).le) h.rho
  · intro time
    refine ⟨_, ?_, followsFlux_map _ _⟩
    unfold smallImpactorIce smallImpactorPop iceSmallImpactors
    simp only [hreg, hc, bind, Except.bind]
    congr 1
    rw [List.map_map]
    apply List.map_congr_left
    intro t _
    simp only [Function.comp]
    rw [mass2water_eq, zipWith_scale_left]
    ring

/-- **C42** small craters: the same, when the production function counts at least as many
craters above the smaller diameter. -/
theorem C42_small_craters (cfg : FluxCfg) (h : NonnegCfg cfg) (mind maxd step slope : ℝ)
    (hreg : PyDict.get cfg.impact_regimes "c" = .ok (mind, maxd, step, slope)) (h0 : 0 < mind)
    (hs : 0 < step) (h1 : step ≤ maxd - mind) (hN : neukum cfg maxd ≤ neukum cfg mind)
    (hv : 0 < cfg.impact_speed_mean) (hi : 0 < cfg.impactor_density) (ht : 0 < cfg.target_density)
    (hg : 0 < cfg.grav_moon) (hsm : maxd ≤ cfg.simple2complex)
    (hcp : cfg.simple2complex ≤ cfg.complex2peakring) :
    ∃ today, 0 ≤ today ∧ ∀ time, ∃ out, smallCraterIce cfg time = .ok out ∧
      FollowsFlux today time out := by
  obtain ⟨ds, ps, hh, hc, h2, hpl, hhd, hlast, hasc, hst, -, hd, hp, -, -⟩ :=
    C41_crater_sfd_partial mind maxd step slope h0 hs h1
  have hh0 : 0 ≤ hh := by linarith [hst.1]
  have hle : ∀ d ∈ ds, d ≤ maxd := by
    intro d hdm
    have hne : ds ≠ [] := by rintro rfl; simp at hdm
    rw [List.getLast?_eq_some_getLast hne, Option.some.injEq] at hlast
    rw [← hlast]
    obtain ⟨i, hi, rfl⟩ := List.mem_iff_getElem.1 hdm
    rw [List.getLast_eq_getElem]
    rcases Nat.lt_or_ge i (ds.length - 1) with h | h
    · exact (List.pairwise_iff_getElem.1 hasc i (ds.length - 1) hi (by omega) h).le
    · have : i = ds.length - 1 := by omega
      subst this; exact le_refl _
  have htr : ∀ d ∈ ds, final2transient cfg.simple2complex cfg.complex2peakring d = d / 1.25 := by
    intro d hdm
    have h3 := (hle d hdm).trans hsm
    unfold final2transient f2tMelosh
    simp only []
    rw [if_neg (not_lt.2 (h3.trans hcp)), if_neg (fun hh => absurd hh.1 (not_lt.2 h3)), if_pos h3,
      if_pos trivial]
  have hmap : ds.map (final2transient cfg.simple2complex cfg.complex2peakring) =
      ds.map (fun d => d / 1.25) := List.map_congr_left htr
  obtain ⟨lens, hlens, -, hbd, -⟩ := C40_prieur (ds.map (fun d => d / 1.25)) (mind / 1.25)
    (maxd / 1.25) cfg.impact_speed_mean cfg.impactor_density cfg.target_density cfg.grav_moon
    hv hi ht hg (by
      rw [List.pairwise_map]
      exact hasc.imp (fun hab => by
        apply div_le_div_of_nonneg_right hab.le; norm_num))
    (by rw [List.head?_map, hhd]; rfl) (by rw [List.getLast?_map, hlast]; rfl)
    (by apply div_pos h0; norm_num)
  obtain ⟨N, hNdef⟩ : ∃ N, N = cometSplit cfg 1 *
    ((neukum cfg mind - neukum cfg maxd) * cfg.sa_moon * cfg.timestep) := ⟨_, rfl⟩
  have hN0 : 0 ≤ N := by
    rw [hNdef]
    apply mul_nonneg (cometSplit_nonneg cfg h 1 zero_le_one)
    exact mul_nonneg (mul_nonneg (by linarith) h.sa) h.ts
  refine ⟨waterFrac cfg * (N *
    (List.zipWith (· * ·) ps (lens.map (fun d => diam2vol d * cfg.impactor_density))).sum), ?_, ?_⟩
  · apply mul_nonneg (waterFrac_nonneg cfg h) (mul_nonneg hN0 _)
    apply zipWith_sum_nonneg
    · exact fun p hpm => (hp p hpm).le
    · intro m hm
      obtain ⟨d, hdm, rfl⟩ := List.mem_map.1 hm
      have hd0 : 0 ≤ d := by
        have := (hbd d hdm).1
        have h5 : 0 ≤ mind / 1.25 / 100 := by positivity
        linarith
      exact mul_nonneg (diam2vol_nonneg d hd0) h.rho
  · intro time
    refine ⟨_, ?_, followsFlux_map _ _⟩
    unfold smallCraterIce craterPop iceSmallCraters diam2len
    rw [hreg]
    simp only [bind, Except.bind]
    rw [hc]
    simp only [if_true]
    rw [hmap, hlens]
    simp only []
    congr 1
    rw [List.map_map, List.map_map]
    apply List.map_congr_left
    intro t _
    simp only [Function.comp]
    rw [mass2water_eq, zipWith_scale_right, cometSplit_eq, hNdef]
    unfold numCraters
    simp only []
    ring

theorem logb_window (d : ℝ) (h1 : 10 ≤ d) (h2 : d ≤ 300000) :
    logb 10 (d * 1e-3) ∈ Set.Icc (-2 : ℝ) (5 / 2) := by
  have hd : 0 < d * 1e-3 := by positivity
  constructor
  · rw [le_logb_iff_rpow_le (by norm_num) hd]
    rw [show ((-2 : ℝ)) = ((-2 : ℤ) : ℝ) by norm_num, rpow_intCast]
    norm_num
    linarith
  · rw [logb_le_iff_le_rpow (by norm_num) hd]
    have h4 : ((10 : ℝ) ^ (5 / 2 : ℝ)) ^ 2 = 100000 := by
      rw [← rpow_natCast, ← rpow_mul (by norm_num)]
      norm_num
    have h5 : (0 : ℝ) < 10 ^ (5 / 2 : ℝ) := rpow_pos_of_pos (by norm_num) _
    by_contra hc
    have h6 : (10 : ℝ) ^ (5 / 2 : ℝ) < 300 := by
      have := not_le.1 hc
      norm_num at this ⊢
      linarith
    nlinarith

/-- **C42** both configured production functions strictly decrease with diameter over
10 m to 300 km, so more craters exceed the smaller size of every regime. -/
theorem C42_neukum_decreasing (cfg : FluxCfg) (h1 : cfg.neukum_pf_a_2001 = neukumA2001)
    (h2 : cfg.neukum_pf_a_1983 = neukumA1983) (d e : ℝ) (hd : 10 ≤ d) (hde : d < e)
    (he : e ≤ 300000) : neukum cfg e < neukum cfg d := by
  have m1 := logb_window d hd (by linarith)
  have m2 := logb_window e (by linarith) he
  have hl : logb 10 (d * 1e-3) < logb 10 (e * 1e-3) := by
    apply logb_lt_logb (by norm_num)
    · positivity
    · linarith
  have key : ∀ a : List ℝ, (StrictAntiOn (fun x : ℝ => (a.mapIdx (fun j c => c * x ^ j)).sum)
      (Set.Icc (-2) (5 / 2))) →
      (10 : ℝ) ^ (a.mapIdx (fun j c => c * logb 10 (e * 1e-3) ^ j)).sum * 1e-6 * 1e-9 <
        (10 : ℝ) ^ (a.mapIdx (fun j c => c * logb 10 (d * 1e-3) ^ j)).sum * 1e-6 * 1e-9 := by
    intro a ha
    have h3 := ha m1 m2 hl
    have h4 := rpow_lt_rpow_of_exponent_lt (x := (10 : ℝ)) (by norm_num) h3
    simp only [] at h4
    linarith
  unfold neukum
  simp only []
  split_ifs
  · rw [h1]; exact key _ neukum_anti_2001
  · rw [h2]; exact key _ neukum_anti_1983

/-- **C42** the default regime `c` (100 m to 1.5 km): the hypothesis on the production
function is met. -/
theorem C42_small_craters_default (cfg : FluxCfg) (h : NonnegCfg cfg)
    (hreg : PyDict.get cfg.impact_regimes "c" = .ok (100, 1500, 1, -3.82))
    (h1 : cfg.neukum_pf_a_2001 = neukumA2001) (h2 : cfg.neukum_pf_a_1983 = neukumA1983)
    (hv : 0 < cfg.impact_speed_mean) (hi : 0 < cfg.impactor_density) (ht : 0 < cfg.target_density)
    (hg : 0 < cfg.grav_moon) (hsm : 1500 ≤ cfg.simple2complex)
    (hcp : cfg.simple2complex ≤ cfg.complex2peakring) :
    ∃ today, 0 ≤ today ∧ ∀ time, ∃ out, smallCraterIce cfg time = .ok out ∧
      FollowsFlux today time out :=
  C42_small_craters cfg h 100 1500 1 (-3.82) hreg (by norm_num) (by norm_num) (by norm_num)
    (C42_neukum_decreasing cfg h1 h2 100 1500 (by norm_num) (by norm_num) (by norm_num)).le
    hv hi ht hg hsm hcp

/-- The default configuration (config.py:115-245). -/
noncomputable def FluxCfg.default : FluxCfg where
  impactor_density := 1300
  target_density := 1500
  grav_moon := 1.62
  impact_angle := 45
  simple2complex := 18e3
  complex2peakring := 1.4e5
  mm_mass_rate := 1e6
  is_comet := false
  impact_ice_comets := true
  comet_hydrated_wt_pct := 0.2
  comet_mass_retained := 0.065
  hydrated_wt_pct := 0.1
  impact_mass_retained := 0.165
  ctype_frac := 0.36
  ctype_hydrated := 2 / 3
  comet_ast_frac := 0.05
  timestep := 10e6
  brown_c0 := 1.568
  brown_d0 := 2.7
  earth_moon_ratio := 22.5
  sa_moon := 4 * Real.pi * 1737.4e3 ^ 2
  impact_speed_mean := 20e3
  neukum_pf_new := true
  neukum_pf_a_2001 := neukumA2001
  neukum_pf_a_1983 := neukumA1983
  impact_regimes := [("b", 0.01, 3, 1e-4, -3.7), ("c", 100, 1500, 1, -3.82)]

theorem FluxCfg.default_nonneg : NonnegCfg FluxCfg.default := by
  have := pi_pos
  constructor <;> simp only [FluxCfg.default] <;> first | (norm_num; done) | positivity

/-- The defaults meet every hypothesis, over three times of the past. -/
example : ∃ a b, smallCraterIce FluxCfg.default [4e9, 2e9, 1e9] = .ok a ∧
    smallImpactorIce FluxCfg.default [4e9, 2e9, 1e9] = .ok b ∧
    a.Pairwise (· ≥ ·) ∧ b.Pairwise (· ≥ ·) := by
  obtain ⟨ta, ha0, ha⟩ := C42_small_craters_default FluxCfg.default FluxCfg.default_nonneg rfl rfl rfl
    (by simp only [FluxCfg.default]; norm_num) (by simp only [FluxCfg.default]; norm_num)
    (by simp only [FluxCfg.default]; norm_num) (by simp only [FluxCfg.default]; norm_num)
    (by simp only [FluxCfg.default]; norm_num) (by simp only [FluxCfg.default]; norm_num)
  obtain ⟨tb, hb0, hb⟩ := C42_small_impactors FluxCfg.default FluxCfg.default_nonneg 0.01 3 1e-4 (-3.7)
    rfl (by norm_num) (by norm_num) (by norm_num)
  obtain ⟨a, h1, h2⟩ := ha [4e9, 2e9, 1e9]
  obtain ⟨b, h3, h4⟩ := hb [4e9, 2e9, 1e9]
  have hd : ([4e9, 2e9, 1e9] : List ℝ).Pairwise (· ≥ ·) := by simp; norm_num
  have hp : ∀ t ∈ ([4e9, 2e9, 1e9] : List ℝ), 0 ≤ t := by
    intro t ht; simp at ht; rcases ht with rfl | rfl | rfl <;> norm_num
  exact ⟨a, b, h1, h3, (C42_non_increasing ta _ _ h2 ha0 hd hp).1,
    (C42_non_increasing tb _ _ h4 hb0 hd hp).1⟩

end MoonPIES
