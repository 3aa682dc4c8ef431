import Verif.Spec.CannonIce
import Verif.Lemmas.Sources
import Verif.Lemmas.MainTotal
import Verif.Lemmas.Shipped

/-!
# C109: in Cannon mode every source delivers the ice of Cannon et al. (2020)
-/

namespace MoonPIES

open Spec Real

variable (seed : Int)

theorem refFlux_eq (t : ℝ) : fluxScaling t = refFlux t := by
  rw [fluxScaling_eq]
  unfold fluxRatio refFlux
  rw [mul_zero, exp_zero, mul_one, show (6.93 : ℝ) * 5.44e-14 = 3.76992e-13 by norm_num,
    show t / 10 ^ 9 = t * 1e-9 by norm_num; ring]

theorem refMass_eq (d : ℝ) : diam2vol d * 1300 = refMass d := by
  unfold diam2vol refMass
  ring

/-- **C109** micrometeorites, at all times. -/
theorem C109_micro (time : List ℝ) :
    iceMicrometeorites (RunCfg.cannon seed).flux time = time.map refMicro := by
  unfold iceMicrometeorites
  apply List.map_congr_left
  intro t _
  simp only [RunCfg.flux, RunCfg.cannon, RunCfg.default, RunCfg.scale, Bool.false_eq_true, if_false]
  rw [refFlux_eq]
  unfold refMicro
  norm_num
  ring

/-- **C109** the number of small impactors between two sizes. -/
theorem C109_brown (lo hi : ℝ) :
    impactorsBrown lo hi (RunCfg.cannon seed).timestep (RunCfg.cannon seed).flux = refBrown lo hi := by
  unfold impactorsBrown refBrown cometSplit
  simp only [RunCfg.flux, RunCfg.cannon, RunCfg.default, RunCfg.scale, Bool.false_eq_true, if_false]
  norm_num

theorem cannon_water (m : ℝ) :
    mass2water (RunCfg.cannon seed).flux m = m * 0.36 * (2 / 3) * 0.1 * 0.165 := by
  unfold mass2water
  simp only [RunCfg.flux, RunCfg.cannon, RunCfg.default, RunCfg.scale, Bool.false_eq_true, if_false]
  ring

theorem zip_power (k slope num : ℝ) (f : ℝ → ℝ) (S : ℝ) : ∀ ls ds : List ℝ,
    (List.zipWith (· * ·) (ls.map f) (ds.map (fun d => num * k * (d ^ slope / S)))).sum =
      (List.zipWith (fun l d => f l * (d ^ slope * (num * k / S))) ls ds).sum
  | [], _ => by simp
  | _ :: _, [] => by simp
  | l :: ls, d :: ds => by
    simp only [List.map_cons, List.zipWith_cons_cons, List.sum_cons]
    rw [zip_power k slope num f S ls ds]
    ring

/-- **C109** small impactors: sizes in steps of 0.1 mm from 1 cm to 3 m, with the slope -3.7. -/
theorem C109_small_impactors (time : List ℝ) : ∃ ds : List ℝ,
    (∀ (i : Nat) d, ds[i]? = some d → d = 0.01 + i * 1e-4) ∧ ds.head? = some 0.01 ∧ ds.getLast? = some 3 ∧
    smallImpactorIce (RunCfg.cannon seed).flux time =
      .ok (time.map fun t => refPowerIce (-3.7) (refBrown 0.01 3 * refFlux t) ds ds) := by
  obtain ⟨ds, ps, h, hds, -, -, hh, hl, -, -, hst, hget, -⟩ := C41_crater_sfd_partial 0.01 3 1e-4 (-3.7) (by norm_num) (by norm_num)
    (by norm_num)
  have hds' := hds
  unfold craterSfd at hds'
  obtain ⟨ds', e1, e2⟩ := bind_ok_inv hds'
  injection e2 with e2
  rw [Prod.mk.injEq] at e2
  obtain ⟨rfl, rfl⟩ := e2
  rw [hst ⟨29900, by norm_num⟩] at hget
  refine ⟨ds', hget, hh, hl, ?_⟩
  unfold smallImpactorIce smallImpactorPop
  rw [show PyDict.get (RunCfg.cannon seed).flux.impact_regimes "b" = .ok (0.01, 3, 1e-4, -3.7) from rfl]
  simp only [bind, Except.bind, hds]
  rw [show (RunCfg.cannon seed).flux.timestep = (RunCfg.cannon seed).timestep from rfl, C109_brown]
  congr 1
  unfold iceSmallImpactors
  simp only [List.map_map]
  apply List.map_congr_left
  intro t _
  simp only [Function.comp]
  rw [cannon_water, refFlux_eq]
  unfold refPowerIce sfdProb
  simp only [List.map_map]
  congr 4
  have hc : ∀ a b : List ℝ, (List.zipWith (· * ·) a b).sum = (List.zipWith (· * ·) b a).sum := by
    intro a b
    rw [List.zipWith_comm]
    congr 2
    funext x y
    exact mul_comm _ _
  rw [hc, show (RunCfg.cannon seed).flux.impactor_density = 1300 from rfl]
  simp only [refMass_eq]
  exact zip_power (refFlux t) (-3.7) (refBrown 0.01 3) refMass _ ds' ds'

/-- **C109** small simple craters: 100 m to 1.5 km in steps of 1 m with the slope -3.82; the number is
that of the production function on the whole Moon; impactors at 20 km/s. -/
theorem C109_simple_craters (time : List ℝ) : ∃ ds ls : List ℝ,
    (∀ (i : Nat) d, ds[i]? = some d → d = 100 + i) ∧ ds.head? = some 100 ∧ ds.getLast? = some 1.5e3 ∧
    diam2len (RunCfg.cannon seed).scale ds 20e3 "c" = .ok ls ∧ ls.length = ds.length ∧
    smallCraterIce (RunCfg.cannon seed).flux time =
      .ok (time.map fun t => refPowerIce (-3.82) ((production (RunCfg.cannon seed) 100 -
        production (RunCfg.cannon seed) 1.5e3) * 1e7 * (RunCfg.cannon seed).sa_moon * refFlux t) ds ls) := by
  obtain ⟨ds, ps, h, hds, -, -, hh, hl, hasc, -, hst, hget, -⟩ := C41_crater_sfd_partial 100 1.5e3 1 (-3.82) (by norm_num)
    (by norm_num) (by norm_num)
  have hds' := hds
  unfold craterSfd at hds'
  obtain ⟨ds', e1, e2⟩ := bind_ok_inv hds'
  injection e2 with e2
  rw [Prod.mk.injEq] at e2
  obtain ⟨rfl, rfl⟩ := e2
  have hne : ds' ≠ [] := by rintro rfl; simp at hh
  have hle : ∀ d ∈ ds', d ≤ 1.5e3 := by
    intro d hd
    rw [List.getLast?_eq_some_getLast hne, Option.some.injEq] at hl
    rw [← hl]
    obtain ⟨i, hi', rfl⟩ := List.mem_iff_getElem.1 hd
    rw [List.getLast_eq_getElem]
    rcases Nat.lt_or_ge i (ds'.length - 1) with h | h
    · exact (List.pairwise_iff_getElem.1 hasc i (ds'.length - 1) hi' (by omega) h).le
    · have : i = ds'.length - 1 := by omega
      subst this; exact le_refl _
  have hmap : ds'.map (final2transient (RunCfg.cannon seed).simple2complex
      (RunCfg.cannon seed).complex2peakring) = ds'.map (fun d => d / 1.25) := by
    apply List.map_congr_left
    intro d hd
    have h3 : d ≤ 18e3 := (hle d hd).trans (by norm_num)
    unfold final2transient f2tMelosh
    simp only [RunCfg.cannon, RunCfg.default]
    rw [if_neg (not_lt.2 (h3.trans (by norm_num))), if_neg (fun hh => absurd hh.1 (not_lt.2 h3)), if_pos h3,
      if_pos trivial]
  obtain ⟨ls, hls, hln, -⟩ := C40_prieur (ds'.map fun d => d / 1.25) (100 / 1.25) (1.5e3 / 1.25) 20e3 1300 1500 1.62
    (by norm_num) (by norm_num) (by norm_num) (by norm_num)
    (List.pairwise_map.2 (hasc.imp fun h => (div_le_div_of_nonneg_right h.le (by norm_num))))
    (by rw [List.head?_map, hh]; rfl) (by rw [List.getLast?_map, hl]; rfl) (by norm_num)
  have hd2l : diam2len (RunCfg.cannon seed).scale ds' 20e3 "c" = .ok ls := by
    rw [← hls, ← hmap]
    rfl
  rw [hst ⟨1400, by norm_num⟩] at hget
  refine ⟨ds', ls, fun i d h => by rw [hget i d h, mul_one], hh, hl, hd2l, by rw [hln, List.length_map], ?_⟩
  unfold smallCraterIce craterPop
  rw [show PyDict.get (RunCfg.cannon seed).flux.impact_regimes "c" = .ok (100, 1.5e3, 1, -3.82) from rfl]
  simp only [bind, Except.bind, hds]
  unfold iceSmallCraters
  rw [show (RunCfg.cannon seed).flux.toScaleCfg = (RunCfg.cannon seed).scale from rfl,
    show (RunCfg.cannon seed).flux.impact_speed_mean = 20e3 from rfl, hd2l]
  simp only [bind, Except.bind]
  congr 1
  simp only [List.map_map]
  apply List.map_congr_left
  intro t _
  simp only [Function.comp]
  rw [cannon_water]
  unfold refPowerIce sfdProb
  simp only [List.map_map]
  congr 4
  rw [show (RunCfg.cannon seed).scale.impactor_density = 1300 from rfl]
  simp only [refMass_eq]
  have hn : cometSplit (RunCfg.cannon seed).flux (numCraters (RunCfg.cannon seed).flux 100 1.5e3 t) =
      (production (RunCfg.cannon seed) 100 - production (RunCfg.cannon seed) 1.5e3) * 1e7 *
        (RunCfg.cannon seed).sa_moon * refFlux t := by
    unfold cometSplit numCraters
    rw [if_neg (by simp [RunCfg.flux, RunCfg.cannon, RunCfg.default]),
      if_neg (by simp [RunCfg.flux, RunCfg.cannon]), neukum_eq, neukum_eq, refFlux_eq,
      show (RunCfg.cannon seed).flux.sa_moon = (RunCfg.cannon seed).sa_moon from rfl,
      show (RunCfg.cannon seed).flux.timestep = 10e6 from rfl, show (10e6 : ℝ) = 1e7 by norm_num]
    ring
  rw [hn]
  have := zip_power 1 (-3.82) ((production (RunCfg.cannon seed) 100 - production (RunCfg.cannon seed) 1.5e3) *
    1e7 * (RunCfg.cannon seed).sa_moon * refFlux t) refMass (ds'.map fun d => d ^ (-3.82 : ℝ)).sum ls ds'
  rw [mul_one] at this
  exact this

/-- **C109** water retained, at all speeds. -/
theorem C109_kept (v : ℝ) : iceRetention "cannon" false v = refKept (v * 1e-3) := by
  unfold refKept
  simp only []
  by_cases hv : v < 10000
  · have h1 : v * 1e-3 < 10 := by norm_num; linarith
    rw [slow _ _ _ hv, if_neg Bool.false_ne_true, if_pos h1]
    norm_num
  · have h1 : ¬ v * 1e-3 < 10 := by norm_num; linarith
    rw [cannon_fast _ _ (not_lt.1 hv), if_neg h1, if_neg (not_lt.2 (by positivity))]
    congr 2
    norm_num
    ring

/-- **C109** large craters (regimes d, e and f): any diameters and speeds. -/
theorem C109_large_craters (regime : String) (ds vs : List ℝ) (hn : ds.length = vs.length) (m : ℝ)
    (hm : largeCratersIce (RunCfg.cannon seed) ds vs regime = .ok m) : ∃ ls, ls.length = ds.length ∧
    (ds.zip vs).mapM (fun p => diam2lenOne (RunCfg.cannon seed).scale p.1 p.2 regime) = .ok ls ∧
    m = refLarge ls vs := by
  unfold largeCratersIce at hm
  rw [if_pos hn] at hm
  obtain ⟨ms, hms, hm⟩ := bind_ok_inv hm
  injection hm with hm
  subst hm
  clear * - hn hms
  induction ds generalizing vs ms with
  | nil =>
    cases vs with
    | nil => cases hms; exact ⟨[], rfl, rfl, rfl⟩
    | cons v vs => simp at hn
  | cons d ds ih =>
    cases vs with
    | nil => simp at hn
    | cons v vs =>
      rw [List.zip_cons_cons, List.mapM_cons] at hms
      obtain ⟨x, hx, hms⟩ := bind_ok_inv hms
      obtain ⟨xs, hxs, hms⟩ := bind_ok_inv hms
      injection hms with hms
      subst hms
      obtain ⟨ls, l1, l2, l3⟩ := ih vs (by simpa using hn) xs hxs
      unfold largeCraterIce at hx
      obtain ⟨l, hl, hx⟩ := bind_ok_inv hx
      injection hx with hx
      refine ⟨l :: ls, by simp [l1], ?_, ?_⟩
      · rw [List.zip_cons_cons, List.mapM_cons, hl, l2]; rfl
      · rw [List.sum_cons, l3]
        unfold refLarge
        rw [List.zipWith_cons_cons, List.sum_cons, ← hx]
        congr 1
        rw [show (RunCfg.cannon seed).impactor_density = 1300 from rfl, refMass_eq,
          show (RunCfg.cannon seed).mode = "cannon" from rfl, show (RunCfg.cannon seed).is_comet = false from rfl,
          C109_kept, show (RunCfg.cannon seed).hydrated_wt_pct = 0.1 from rfl]
        ring

/-- **C109** the thickness of any mass of ice. -/
theorem C109_thickness (m : ℝ) : iceThickness (RunCfg.cannon seed).ice m = .ok (refThickness m) := by
  unfold iceThickness refThickness
  simp only [RunCfg.ice, RunCfg.cannon, RunCfg.default, bind, Except.bind, if_true]
  norm_num

theorem volcanic_one (n : Int) :
    volcanicHead (RunCfg.cannon seed).head [(n : ℝ) * 1e7] = [refVolcanic ((n : ℝ) * 1e7)] := by
  unfold volcanicHead refVolcanic
  simp only [RunCfg.head, RunCfg.cannon, RunCfg.default, List.map_cons, List.map_nil]
  rw [show (n : ℝ) * 1e7 / 1e7 = n by norm_num, roundHalfEven_int]
  congr 1
  have e1 : ((n : ℝ) * 1e7 ≤ 4e9 ∧ (n : ℝ) * 1e7 > 3e9) ↔ 300 < n ∧ n ≤ 400 := by
    constructor
    · rintro ⟨h1, h2⟩
      have h1' : (n : ℝ) ≤ 400 := by norm_num at h1; linarith
      have h2' : (300 : ℝ) < n := by norm_num at h2; linarith
      exact ⟨by exact_mod_cast h2', by exact_mod_cast h1'⟩
    · rintro ⟨h1, h2⟩
      have h1' : (300 : ℝ) < n := by exact_mod_cast h1
      have h2' : (n : ℝ) ≤ 400 := by exact_mod_cast h2
      constructor <;> norm_num <;> linarith
  have e2 : ((n : ℝ) * 1e7 ≤ 3e9 ∧ (n : ℝ) * 1e7 > 2e9) ↔ 200 < n ∧ n ≤ 300 := by
    constructor
    · rintro ⟨h1, h2⟩
      have h1' : (n : ℝ) ≤ 300 := by norm_num at h1; linarith
      have h2' : (200 : ℝ) < n := by norm_num at h2; linarith
      exact ⟨by exact_mod_cast h2', by exact_mod_cast h1'⟩
    · rintro ⟨h1, h2⟩
      have h1' : (200 : ℝ) < n := by exact_mod_cast h1
      have h2' : (n : ℝ) ≤ 300 := by exact_mod_cast h2
      constructor <;> norm_num <;> linarith
  have e3 : ((n : ℝ) / 100 > 2.00 ∧ (n : ℝ) / 100 < 4.01) ↔ 200 < n ∧ n < 401 := by
    constructor
    · rintro ⟨h1, h2⟩
      have h1' : (200 : ℝ) < n := by norm_num at h1; linarith
      have h2' : (n : ℝ) < 401 := by norm_num at h2; linarith
      exact ⟨by exact_mod_cast h1', by exact_mod_cast h2'⟩
    · rintro ⟨h1, h2⟩
      have h1' : (200 : ℝ) < n := by exact_mod_cast h1
      have h2' : (n : ℝ) < 401 := by exact_mod_cast h2
      constructor <;> norm_num <;> linarith
  have e4 : ((n : ℝ) / 100 > 3.00) ↔ 300 < n := by
    constructor
    · intro h1
      have h1' : (300 : ℝ) < n := by norm_num at h1; linarith
      exact_mod_cast h1'
    · intro h1
      have h1' : (300 : ℝ) < n := by exact_mod_cast h1
      norm_num
      linarith
  simp only [e1, e2, e3, e4]
  split_ifs <;> first | omega | norm_num

/-- **C109** volcanic ice at all times of a timestep of 10 million years. -/
theorem C109_volcanic (ns : List Int) :
    volcanicHead (RunCfg.cannon seed).head (ns.map (fun n : Int => (n : ℝ) * 1e7)) =
      ns.map (fun n : Int => refVolcanic ((n : ℝ) * 1e7)) := by
  induction ns with
  | nil => rfl
  | cons n ns ih =>
    have h : ∀ (t : ℝ) (l : List ℝ), volcanicHead (RunCfg.cannon seed).head (t :: l) =
        volcanicHead (RunCfg.cannon seed).head [t] ++ volcanicHead (RunCfg.cannon seed).head l :=
      fun _ _ => rfl
    rw [List.map_cons, List.map_cons, h, volcanic_one, ih]
    rfl

/-- Two craters of the simple-to-complex range, to which the law for large craters applies. -/
example : ∃ m, largeCratersIce (RunCfg.cannon 1) [16000, 17000] [20000, 9000] "d" = .ok m :=
  ⟨_, rfl⟩

end MoonPIES
