import Verif.Spec.Sources
import Verif.Lemmas.Impact
import Verif.Lemmas.Main
import Mathlib.Data.List.Indexes

/-!
# The impact ice functions against the specification of the sources
-/

namespace MoonPIES

open Spec Real

variable {σ : Type}

/-- The configuration the code uses for a kind of impactors. -/
def cfgOf (c : RunCfg) : Kind → RunCfg
  | .asteroid => c
  | .comet => c.comet

theorem physical_kind {c : RunCfg} (h : PhysicalCfg c) : ∀ k, PhysicalCfg (cfgOf c k)
  | .asteroid => h
  | .comet => physical_comet h

/-! ## One impact -/

theorem fluxScaling_eq (t : ℝ) : fluxScaling t = fluxRatio t := by
  unfold fluxScaling impactFlux fluxRatio
  simp only []
  rw [zero_mul, mul_zero, exp_zero, mul_one, mul_div_mul_right _ _ (by norm_num)]
  have : (6.93 : ℝ) * (t * 1e-9) = 6.93 * (t / 10 ^ 9) := by norm_num; ring
  rw [this]

theorem diam2vol_eq (L : ℝ) : diam2vol L = sphere L := by
  unfold diam2vol sphere; ring

theorem neukum_eq (c : RunCfg) (D : ℝ) : neukum c.flux D = production c D := by
  unfold neukum production
  simp only []
  have e : D * 1e-3 = D / 1000 := by norm_num; ring
  rw [e]
  change (10 : ℝ) ^ ((if c.neukum_pf_new then c.neukum_pf_a_2001 else c.neukum_pf_a_1983).mapIdx
    _).sum * _ * _ = _
  rw [List.mapIdx_eq_ofFn, List.sum_ofFn]
  norm_num
  ring

theorem kept_eq (mode : String) (c : RunCfg) (hc : c.is_comet = false) (k : Kind) (v : ℝ) :
    iceRetention mode (cfgOf c k).is_comet v = kept mode k v := by
  unfold kept
  by_cases hv : v < 10000
  · rw [slow _ _ _ hv, if_pos hv]
    cases k
    · simp [cfgOf, hc]
    · simp [cfgOf, RunCfg.comet]
  rw [if_neg hv]
  have hv' := not_lt.1 hv
  by_cases h1 : mode = "cannon"
  · rw [if_pos h1, h1, cannon_fast _ _ hv']
  rw [if_neg h1]
  by_cases h2 : mode = "moonpies"
  · rw [if_pos h2, h2, moonpies_fast _ _ hv']
  rw [if_neg h2]
  have h3 : ¬ v * 1e-3 < 10 := by norm_num; linarith
  unfold iceRetention
  simp only [h1, h2, h3, if_false]
  split <;> norm_num

theorem largeCraterIce_spec {c : RunCfg} (h : PhysicalCfg c) (hc : c.is_comet = false) (k : Kind)
    (regime : String) (hr : regime = "d" ∨ regime = "e" ∨ regime = "f") (D v m : ℝ) (hD : 0 < D)
    (hv : 0 < v) (hm : largeCraterIce (cfgOf c k) regime D v = .ok m) : IceOf c k regime D v m := by
  unfold largeCraterIce at hm
  obtain ⟨L, hL, hm⟩ := bind_ok_inv hm
  injection hm with hm
  have hp := physical_kind h k
  have ht : 0 < final2transient c.simple2complex c.complex2peakring D := final2transient_pos hD
  have e1 : (cfgOf c k).impactor_density = density c k := by cases k <;> rfl
  have e2 : (cfgOf c k).hydrated_wt_pct = water c k := by cases k <;> rfl
  have e3 : (cfgOf c k).mode = c.mode := by cases k <;> rfl
  have es : (cfgOf c k).scale = ⟨density c k, c.target_density, c.grav_moon, c.impact_angle,
    c.simple2complex, c.complex2peakring⟩ := by cases k <;> rfl
  have hrho : 0 < density c k := by rw [← e1]; exact hp.rho
  refine ⟨L, ?_, ?_⟩
  · rw [es] at hL
    unfold diam2lenOne at hL
    simp only [] at hL
    rcases hr with rfl | rfl | rfl
    · rw [if_neg (by decide), if_pos rfl] at hL
      injection hL with hL
      obtain ⟨k1, k2⟩ := C39_collins_inverse _ v _ _ _ _ ht hv hrho h.trho h.grav h.angle.1 h.angle.2
      rw [hL] at k1 k2
      exact ⟨k1, Or.inl ⟨rfl, k2⟩⟩
    · rw [if_neg (by decide), if_neg (by decide), if_pos (Or.inl rfl)] at hL
      injection hL with hL
      obtain ⟨k1, k2⟩ := C39_johnson_inverse _ v _ _ _ _ _ ht hv hrho h.trho h.grav h.s2c.1 h.angle.1
        h.angle.2
      rw [hL] at k1 k2
      exact ⟨k1, Or.inr ⟨Or.inl rfl, k2⟩⟩
    · rw [if_neg (by decide), if_neg (by decide), if_pos (Or.inr rfl)] at hL
      injection hL with hL
      obtain ⟨k1, k2⟩ := C39_johnson_inverse _ v _ _ _ _ _ ht hv hrho h.trho h.grav h.s2c.1 h.angle.1
        h.angle.2
      rw [hL] at k1 k2
      exact ⟨k1, Or.inr ⟨Or.inr rfl, k2⟩⟩
  · rw [← hm, kept_eq _ _ hc, diam2vol_eq, e1, e2, e3]

theorem largeMasses_spec {c : RunCfg} (h : PhysicalCfg c) (hc : c.is_comet = false) (k : Kind)
    (regime : String) (hr : regime = "d" ∨ regime = "e" ∨ regime = "f") :
    ∀ (l : List (ℝ × ℝ)) (ms : List ℝ), (∀ p ∈ l, 0 < p.1 ∧ 0 < p.2) →
    l.mapM (fun p => largeCraterIce (cfgOf c k) regime p.1 p.2) = .ok ms →
    List.Forall₂ (fun p m => IceOf c k regime p.1 p.2 m) l ms
  | [], ms, _, hm => by
    cases hm
    exact List.Forall₂.nil
  | p :: l, ms, hl, hm => by
    rw [List.mapM_cons] at hm
    obtain ⟨x, hx, hm⟩ := bind_ok_inv hm
    obtain ⟨xs, hxs, hm⟩ := bind_ok_inv hm
    cases hm
    have hp := hl p (by simp)
    exact List.Forall₂.cons (largeCraterIce_spec h hc k regime hr _ _ _ hp.1 hp.2 hx)
      (largeMasses_spec h hc k regime hr l xs (fun q hq => hl q (by simp [hq])) hxs)

/-! ## Speeds -/

theorem truncnormRvs_inv (g : Gen σ) (a : ℝ) (b : Option ℝ) (loc scale : ℝ) (n : Nat) (s s' : σ)
    (v : List ℝ) (h : truncnormRvs g a b loc scale n s = .ok (v, s')) :
    ∃ z, g.truncnorm a b n s = (z, s') ∧ v = z.map (fun z => loc + scale * z) := by
  unfold truncnormRvs at h
  split at h
  · injection h with h
    rw [Prod.mk.injEq] at h
    exact ⟨(g.truncnorm a b n s).1, by rw [← h.2], h.1.symm⟩
  · cases h

theorem impactorSpeeds_spec (g : Gen σ) (hg : LawfulGen g) {c : RunCfg} (h : PhysicalCfg c)
    (hc : c.is_comet = false) (k : Kind) (n : Nat) (s s' : σ) (v : List ℝ)
    (hv : impactorSpeeds g (cfgOf c k) n s = .ok (v, s')) :
    Speeds g c k n s v s' ∧ v.length = n ∧ ∀ x ∈ v, 0 < x := by
  obtain ⟨v', s1, e, hl, hpos⟩ := impactorSpeeds_ok g hg (physical_kind h k) n s
  rw [hv, Except.ok.injEq, Prod.mk.injEq] at e
  obtain ⟨rfl, rfl⟩ := e
  refine ⟨?_, hl, hpos⟩
  cases k with
  | asteroid =>
    unfold impactorSpeeds asteroidSpeeds at hv
    rw [if_neg (show ¬ (cfgOf c .asteroid).is_comet = true by simp [cfgOf, hc]),
      if_neg (show (cfgOf c .asteroid).speed.speedSd ≠ 0 from h.sd.ne')] at hv
    exact truncnormRvs_inv g _ _ _ _ _ _ _ _ hv
  | comet =>
    unfold impactorSpeeds cometSpeeds at hv
    rw [if_pos (show (cfgOf c .comet).is_comet = true from rfl),
      if_neg (show (cfgOf c .comet).speed.jfcSd ≠ 0 from h.jsd.ne'),
      if_neg (show (cfgOf c .comet).speed.lpcSd ≠ 0 from h.lsd.ne'),
      if_neg (show (cfgOf c .comet).jfc_frac + (cfgOf c .comet).lpc_frac ≠ 0 from h.fracs.ne')] at hv
    simp only [] at hv
    split at hv
    case isFalse => cases hv
    next hw =>
    obtain ⟨p1, h1, hv⟩ := bind_ok_inv hv
    obtain ⟨p2, h2, hv⟩ := bind_ok_inv hv
    obtain ⟨sp, h3, hv⟩ := bind_ok_inv hv
    injection hv with hv
    rw [Prod.mk.injEq] at hv
    obtain ⟨rfl, rfl⟩ := hv
    obtain ⟨z, z1, z2⟩ := truncnormRvs_inv g _ _ _ _ _ _ _ _ h1
    obtain ⟨w, w1, w2⟩ := truncnormRvs_inv g _ _ _ _ _ _ _ _ h2
    refine ⟨_, _, z, p1.2, w, rfl, z1, w1, hl, ?_⟩
    intro i x hi
    have hpl : (g.choiceIdx 2 n [c.jfc_frac / (c.jfc_frac + c.lpc_frac),
      c.lpc_frac / (c.jfc_frac + c.lpc_frac)] s).1.length = n := hg.choiceIdx_length _ _ _ _ hw
    have hpm := hg.choiceIdx_lt 2 n [c.jfc_frac / (c.jfc_frac + c.lpc_frac),
      c.lpc_frac / (c.jfc_frac + c.lpc_frac)] s hw
    have hil : i < n := by rw [← hl]; exact (List.getElem?_eq_some_iff.1 hi).1
    have hj : -c.comet_speed_min / c.jfc_speed_sd < c.comet_speed_max / c.jfc_speed_sd := by
      rw [div_lt_div_iff_of_pos_right h.jsd]; linarith [h.crange]
    have hk : -c.comet_speed_min / c.lpc_speed_sd < c.comet_speed_max / c.lpc_speed_sd := by
      rw [div_lt_div_iff_of_pos_right h.lsd]; linarith [h.crange]
    have lz : z.length = n := by
      have := hg.truncnorm_length (-c.comet_speed_min / c.jfc_speed_sd)
        (some (c.comet_speed_max / c.jfc_speed_sd)) n (g.choiceIdx 2 n
        [c.jfc_frac / (c.jfc_frac + c.lpc_frac), c.lpc_frac / (c.jfc_frac + c.lpc_frac)] s).2
        (by rintro b' hb; rw [Option.some.injEq] at hb; rw [← hb]; exact hj)
      exact (congrArg (fun p => p.1.length) z1).symm.trans this
    have lw : w.length = n := by
      have := hg.truncnorm_length (-c.comet_speed_min / c.lpc_speed_sd)
        (some (c.comet_speed_max / c.lpc_speed_sd)) n p1.2
        (by rintro b' hb; rw [Option.some.injEq] at hb; rw [← hb]; exact hk)
      exact (congrArg (fun p => p.1.length) w1).symm.trans this
    obtain ⟨pick, hpick⟩ : ∃ t, t = (g.choiceIdx 2 n [c.jfc_frac / (c.jfc_frac + c.lpc_frac),
      c.lpc_frac / (c.jfc_frac + c.lpc_frac)] s).1 := ⟨_, rfl⟩
    rw [← hpick] at hpl hpm
    change npChoose (g.choiceIdx 2 n [c.jfc_frac / (c.jfc_frac + c.lpc_frac),
      c.lpc_frac / (c.jfc_frac + c.lpc_frac)] s).1 [p1.1, p2.1] = _ at h3
    rw [← hpick] at h3
    obtain ⟨out, o1, -, o3⟩ := C31_samples pick [p1.1, p2.1] hpm (by
      intro col hcol
      simp only [List.mem_cons, List.not_mem_nil, or_false] at hcol
      rcases hcol with rfl | rfl
      · rw [z2, List.length_map, lz, hpl]
      · rw [w2, List.length_map, lw, hpl])
    rw [h3, Except.ok.injEq] at o1
    subst o1
    have hil' : i < pick.length := by rw [hpl]; exact hil
    have hpi := List.getElem?_eq_getElem hil'
    obtain ⟨col, c1, c2⟩ := o3 i _ x hpi hi
    have hlt : pick[i] < 2 := hpm _ (List.getElem_mem hil')
    have hpi : (g.choiceIdx 2 n [c.jfc_frac / (c.jfc_frac + c.lpc_frac),
      c.lpc_frac / (c.jfc_frac + c.lpc_frac)] s).1[i]? = some pick[i] := by rw [← hpick]; exact hpi
    rcases (by omega : pick[i] = 0 ∨ pick[i] = 1) with h0 | h0
    · left
      rw [h0] at c1 hpi
      simp only [List.getElem?_cons_zero, Option.some.injEq] at c1
      rw [← c1, z2, List.getElem?_map, Option.map_eq_some_iff] at c2
      obtain ⟨y, y1, y2⟩ := c2
      exact ⟨hpi, y, y1, y2.symm⟩
    · right
      rw [h0] at c1 hpi
      simp only [List.getElem?_cons_succ, List.getElem?_cons_zero, Option.some.injEq] at c1
      rw [← c1, w2, List.getElem?_map, Option.map_eq_some_iff] at c2
      obtain ⟨y, y1, y2⟩ := c2
      exact ⟨hpi, y, y1, y2.symm⟩

/-! ## Craters drawn one by one -/

theorem maskSelect_eq (p : ℝ) : ∀ (l u : List ℝ), (open Classical in
    maskSelect l (u.map (fun x => decide (x < p))) =
      ((l.zip u).filter (fun q => decide (q.2 < p))).map (·.1))
  | [], u => by simp [maskSelect]
  | a :: l, [] => by simp [maskSelect]
  | a :: l, b :: u => by
    have ih := maskSelect_eq p l u
    simp only [List.map_cons, maskSelect, List.zip_cons_cons, List.filter_cons]
    by_cases h : b < p
    · simp [h, ih]
    · simp [h, ih]

theorem hydProb_eq (c : RunCfg) (hc : c.is_comet = false) (k : Kind) :
    hydProbCraters (cfgOf c k).imp = share c k * wet c k := by
  cases k with
  | asteroid =>
    unfold hydProbCraters share wet
    simp only [cfgOf, RunCfg.imp, hc, Bool.false_eq_true, if_false]
    split <;> ring
  | comet => simp [hydProbCraters, share, wet, cfgOf, RunCfg.imp, RunCfg.comet]

theorem stochLoop_spec (g : Gen σ) (hg : LawfulGen g) {c : RunCfg} (h : PhysicalCfg c)
    (hc : c.is_comet = false) (k : Kind) (regime : String)
    (hr : regime = "d" ∨ regime = "e" ∨ regime = "f") (ds ps : List ℝ)
    (hds : ∀ d ∈ ds, 0 < d) : ∀ (ns : List Int) (s s' : σ) (out : List ℝ),
      stochLoop g (cfgOf c k) regime ds ps ns s = .ok (out, s') →
      Steps (Shower g c k regime ds ps) ns s out s'
  | [], s, s', out, ho => by
    unfold stochLoop at ho
    cases ho
    exact .nil _
  | n :: ns, s, s', out, ho => by
    unfold stochLoop at ho
    obtain ⟨rd, h1, ho⟩ := bind_ok_inv ho
    obtain ⟨v, h2, ho⟩ := bind_ok_inv ho
    obtain ⟨m, h3, ho⟩ := bind_ok_inv ho
    obtain ⟨rest, h4, ho⟩ := bind_ok_inv ho
    injection ho with ho
    rw [Prod.mk.injEq] at ho
    obtain ⟨rfl, rfl⟩ := ho
    refine .cons ?_ (stochLoop_spec g hg h hc k regime hr ds ps hds ns v.2 rest.2 rest.1 h4)
    unfold choiceOf at h1
    split at h1
    case isFalse => cases h1
    next hn =>
    injection h1 with h1
    have emask := maskSelect_eq (hydProbCraters (cfgOf c k).imp) rd.1 (g.random rd.1.length rd.2).1
    change maskSelect rd.1 (hydratedCraters (cfgOf c k).imp (g.random rd.1.length rd.2).1) = _ at emask
    rw [hydProb_eq c hc k] at emask
    obtain ⟨hs, hl, hpos⟩ := impactorSpeeds_spec g hg h hc k _ _ v.2 v.1 h2
    unfold largeCratersIce at h3
    rw [if_pos hl.symm] at h3
    obtain ⟨ms, h5, h3⟩ := bind_ok_inv h3
    injection h3 with h3
    refine ⟨hn.2, rd.1, rd.2, _, _, _, v.1, ms, h1, rfl, emask, hs, ?_, h3.symm⟩
    apply largeMasses_spec h hc k regime hr _ _ _ h5
    intro p hp
    refine ⟨hds _ ?_, hpos _ (List.of_mem_zip hp).2⟩
    have := maskSelect_mem _ _ _ (List.of_mem_zip hp).1
    rw [← h1] at this
    exact hg.choice_mem _ _ _ _ hn.1 _ this

theorem craterSfd_spec (lo hi step slope : ℝ) (h0 : 0 < lo) (hs : 0 < step) (h1 : step ≤ hi - lo)
    (ds ps : List ℝ) (h : craterSfd lo hi step slope = .ok (ds, ps)) :
    Sizes lo hi step slope ds ps ∧ (∀ d ∈ ds, 0 < d) ∧ ds.Pairwise (· < ·) ∧
      ds.head? = some lo ∧ ds.getLast? = some hi := by
  have hq0 : 0 ≤ (hi - lo) / step := div_nonneg (by linarith) hs.le
  obtain ⟨n, hn⟩ : ∃ n, n = ⌊(hi - lo) / step⌋₊ := ⟨_, rfl⟩
  have hn1 : (n : ℝ) * step ≤ hi - lo := by
    rw [← le_div_iff₀ hs, hn]; exact Nat.floor_le hq0
  have hn2 : hi - lo < (n + 1) * step := by
    rw [← div_lt_iff₀ hs, hn]; exact Nat.lt_floor_add_one _
  have hn3 : 1 ≤ n := by
    rw [hn]; apply Nat.le_floor; push_cast; rw [le_div_iff₀ hs]; linarith
  have hab : lo < hi := by linarith
  unfold craterSfd at h
  rw [diamArray_eq lo hi step n hn3 hs hn1 hn2] at h
  obtain ⟨ds', hds, h⟩ := bind_ok_inv h
  injection h with h
  rw [Prod.mk.injEq] at h
  obtain ⟨rfl, rfl⟩ := h
  obtain ⟨hlen, hget⟩ := linspace_get lo hi (n + 1) (by omega) ds' hds
  have hasc := linspace_asc lo hi (n + 1) (by omega) hab ds' hds
  have hbd := linspace_bounds lo hi (n + 1) (by omega) hab.le ds' hds
  obtain ⟨hfst, hlst⟩ := linspace_last lo hi (n + 1) (by omega) ds' hds
  have hpos : ∀ d ∈ ds', 0 < d := fun d hd => lt_of_lt_of_le h0 (hbd d hd).1
  have hS : 0 < (ds'.map (fun d => d ^ slope)).sum := by
    apply sum_pos_of_pos
    · intro he
      rw [List.map_eq_nil_iff] at he
      rw [he] at hlen
      simp at hlen
    · intro x hx
      obtain ⟨d, hd, rfl⟩ := List.mem_map.1 hx
      have := hpos d hd
      positivity
  refine ⟨⟨by rw [hlen, hn], by simp [sfdProb], ?_, ?_⟩, hpos, hasc, ?_, ?_⟩
  · intro i d hi'
    have hil : i < n + 1 := by rw [← hlen]; exact (List.getElem?_eq_some_iff.1 hi').1
    rw [hget i hil, Option.some.injEq] at hi'
    rw [← hi', ← hn]; push_cast; ring
  · intro i d p hd hp
    unfold sfdProb at hp
    simp only [List.getElem?_map, hd, Option.map_some, Option.some.injEq] at hp
    rw [← hp, div_mul_cancel₀ _ hS.ne']
  · rw [List.head?_eq_getElem?]; exact hfst
  · rw [List.getLast?_eq_getElem?, hlen]; exact hlst

theorem split_eq (c : RunCfg) (hc : c.is_comet = false) (k : Kind) (n : ℝ) :
    cometSplit (cfgOf c k).flux n = share c k * n := by
  cases k with
  | asteroid =>
    unfold cometSplit share
    simp only [cfgOf, RunCfg.flux, hc, Bool.false_eq_true, if_false]
    split <;> ring
  | comet =>
    simp only [cometSplit, share, cfgOf, RunCfg.flux, RunCfg.comet, if_true]
    ring

theorem kind_neukum (c : RunCfg) (k : Kind) (D : ℝ) :
    neukum (cfgOf c k).flux D = production c D := by
  rw [neukum_eq]
  cases k <;> rfl

theorem expected_eq (c : RunCfg) (hc : c.is_comet = false) (k : Kind) (lo hi t : ℝ) :
    cometSplit (cfgOf c k).flux (numCraters (cfgOf c k).flux lo hi t) = expected c k lo hi t := by
  rw [split_eq c hc]
  unfold numCraters expected
  simp only []
  rw [kind_neukum, kind_neukum, fluxScaling_eq]
  have e1 : (cfgOf c k).flux.sa_moon = c.sa_moon := by cases k <;> rfl
  have e2 : (cfgOf c k).flux.timestep = c.timestep := by cases k <;> rfl
  rw [e1, e2]
  ring

theorem craterPop_spec {c : RunCfg} (hc : c.is_comet = false) (k : Kind) (time : List ℝ)
    (regime : String) (lo hi step slope : ℝ)
    (hreg : c.impact_regimes.get regime = .ok (lo, hi, step, slope)) (h0 : 0 < lo) (hs : 0 < step)
    (h1 : step ≤ hi - lo) (ds ns ps : List ℝ)
    (h : craterPop (cfgOf c k).flux time regime = .ok (ds, ns, ps)) :
    Sizes lo hi step slope ds ps ∧ (∀ d ∈ ds, 0 < d) ∧
      ns = time.map (fun t => expected c k lo hi t) ∧ ds.Pairwise (· < ·) ∧
      ds.head? = some lo ∧ ds.getLast? = some hi := by
  have e : PyDict.get (cfgOf c k).flux.impact_regimes regime = .ok (lo, hi, step, slope) := by
    cases k <;> exact hreg
  unfold craterPop at h
  rw [e] at h
  obtain ⟨q0, hq0, h⟩ := bind_ok_inv h
  injection hq0 with hq0
  subst hq0
  obtain ⟨q, hq, h⟩ := bind_ok_inv h
  injection h with h
  simp only [Prod.mk.injEq] at h
  obtain ⟨rfl, rfl, rfl⟩ := h
  obtain ⟨k1, k2, k3⟩ := craterSfd_spec lo hi step slope h0 hs h1 q.1 q.2 hq
  exact ⟨k1, k2, List.map_congr_left (fun t _ => expected_eq c hc k lo hi t), k3⟩

theorem iceStochastic_spec (g : Gen σ) (hg : LawfulGen g) {c : RunCfg} (h : PhysicalCfg c)
    (hc : c.is_comet = false) (k : Kind) (regime : String) (hr : regime = "d" ∨ regime = "e")
    (time : List ℝ) (s s' : σ) (out : List ℝ)
    (ho : iceStochastic g (cfgOf c k) time regime s = .ok (out, s')) :
    Drawn g c k regime time s out s' := by
  obtain ⟨lo, hi, step, slope, e, h0, hs, h1, -⟩ : RegimeOK (c.impact_regimes.get regime)
      (fun lo hi => neukum c.flux hi ≤ neukum c.flux lo) := by
    rcases hr with rfl | rfl
    · exact h.regD
    · exact h.regE
  unfold iceStochastic at ho
  obtain ⟨⟨ds, ns, ps⟩, h2, ho⟩ := bind_ok_inv ho
  obtain ⟨k1, k2, k3, -⟩ := craterPop_spec hc k time regime lo hi step slope e h0 hs h1 ds ns ps h2
  have hlen : ns.length = time.length := by rw [k3, List.length_map]
  refine ⟨lo, hi, step, slope, ds, ps, _, _, e, k1, rfl, ?_⟩
  have := stochLoop_spec g hg h hc k regime (by tauto) ds ps k2 _ _ _ _ ho
  simp only [hlen] at this
  rw [k3, List.zipWith_map_left] at this
  exact this

/-! ## Basins -/

theorem icyRows_eq (c : RunCfg) (hc : c.is_comet = false) (k : Kind) (df : CraterTable) :
    (open Classical in icyRows (cfgOf c k) df =
      df.filter (fun r => decide (r.rest.crater.isbasin = true ∧ r.rest.icy = mark k))) := by
  unfold icyRows
  simp only []
  have e : (if (cfgOf c k).is_comet then "comet" else "hyd_ctype") = mark k := by
    cases k
    · simp [cfgOf, hc, mark]
    · simp [cfgOf, RunCfg.comet, mark]
  rw [e]
  apply List.filter_congr
  intro r _
  rw [Bool.eq_iff_iff]
  simp

theorem foldl_add_eq_sum (l : List ℝ) : ∀ a : ℝ, l.foldl (· + ·) a = a + l.sum := by
  induction l with
  | nil => intro a; simp
  | cons x l ih => intro a; rw [List.foldl_cons, ih, List.sum_cons]; ring

open Classical in
theorem iceBasins_spec (g : Gen σ) (hg : LawfulGen g) {c : RunCfg} (h : PhysicalCfg c)
    (hc : c.is_comet = false) (k : Kind) (df : CraterTable)
    (hdf : ∀ r ∈ df, r.rest.crater.isbasin = true → 0 < r.rest.crater.rad)
    (time : List ℝ) (hne : time ≠ []) (s s' : σ) (out : List ℝ)
    (ho : iceBasins g (cfgOf c k) df time s = .ok (out, s')) :
    Basins g c k df time s out s' := by
  unfold iceBasins at ho
  rw [icyRows_eq c hc k df] at ho
  obtain ⟨rows, hrows⟩ : ∃ t, t = df.filter
    (fun r => decide (r.rest.crater.isbasin = true ∧ r.rest.icy = mark k)) := ⟨_, rfl⟩
  simp only [← hrows] at ho
  obtain ⟨v, h1, ho⟩ := bind_ok_inv ho
  obtain ⟨ms, h2, ho⟩ := bind_ok_inv ho
  obtain ⟨b, h3, ho⟩ := bind_ok_inv ho
  injection ho with ho
  rw [Prod.mk.injEq] at ho
  obtain ⟨rfl, rfl⟩ := ho
  obtain ⟨k1, k2, k3⟩ := impactorSpeeds_spec g hg h hc k _ _ v.2 v.1 h1
  have hf := largeMasses_spec h hc k "f" (by simp) _ _ (by
    intro p hp
    refine ⟨?_, k3 _ (List.of_mem_zip hp).2⟩
    obtain ⟨r, hr, e⟩ := List.mem_map.1 (List.of_mem_zip hp).1
    rw [hrows] at hr
    have hr' := List.mem_filter.1 hr
    have := hdf r hr'.1 (by have := hr'.2; simp only [decide_eq_true_eq] at this; exact this.1)
    rw [← e]; positivity) h2
  obtain ⟨out', o1, o2, o3⟩ := C15_nearest_placement RunCfg.rtol time hne
    ((rows.map (·.age)).zip ms) (· + ·) 0
  rw [h3, Except.ok.injEq] at o1
  subst o1
  refine ⟨rows, v.1, ms, hrows, k1, hf, o2, ?_⟩
  intro i m hi
  have hil : i < time.length := by rw [← o2]; exact (List.getElem?_eq_some_iff.1 hi).1
  rw [o3 i hil, Option.some.injEq] at hi
  rw [← hi, foldl_add_eq_sum, zero_add]
  have er : RunCfg.rtol = 1 / 10 ^ 6 := by unfold RunCfg.rtol; norm_num
  rw [er]
  congr 1
  have gen : ∀ (l : CraterTable) (m : List ℝ),
      ((((l.map (·.age)).zip m).filter (fun p => decide (InRange (1 / 10 ^ 6) time p.1 ∧
        Nearest time p.1 i))).map (·.2)) =
      (((l.zip m).filter (fun p => decide (InRange (1 / 10 ^ 6) time p.1.age ∧
        Nearest time p.1.age i))).map (·.2)) := by
    intro l
    induction l with
    | nil => intro m; simp
    | cons r l ih =>
      intro m
      cases m with
      | nil => simp
      | cons x m =>
        simp only [List.map_cons, List.zip_cons_cons, List.filter_cons]
        split
        · simp only [List.map_cons, ih]
        · exact ih m
  exact gen rows ms

/-! ## Mean rates -/

theorem micro_eq (c : RunCfg) (hc : c.is_comet = false) (k : Kind) (time : List ℝ) :
    iceMicrometeorites (cfgOf c k).flux time = time.map (fun t => micro c k t) := by
  unfold iceMicrometeorites
  apply List.map_congr_left
  intro t _
  simp only [fluxScaling_eq]
  cases k with
  | asteroid =>
    simp only [cfgOf, RunCfg.flux, hc, micro, water, retained, Bool.false_eq_true, if_false]
    split <;> ring
  | comet =>
    simp only [cfgOf, RunCfg.flux, RunCfg.comet, micro, water, retained, if_true]
    ring

theorem waterFrac_eq (c : RunCfg) (hc : c.is_comet = false) (k : Kind) :
    waterFrac (cfgOf c k).flux = wet c k * water c k * retained c k := by
  cases k with
  | asteroid =>
    simp only [waterFrac, cfgOf, RunCfg.flux, hc, wet, water, retained, Bool.false_eq_true, if_false]
  | comet =>
    simp only [waterFrac, cfgOf, RunCfg.flux, RunCfg.comet, wet, water, retained, if_true]
    ring

theorem mean_sum (rho : ℝ) : ∀ (ls ps : List ℝ),
    (List.zipWith (· * ·) ps (ls.map (fun d => diam2vol d * rho))).sum =
      ((ls.zip ps).map (fun p => sphere p.1 * p.2)).sum * rho
  | [], ps => by simp
  | l :: ls, [] => by simp
  | l :: ls, p :: ps => by
    simp only [List.map_cons, List.zipWith_cons_cons, List.zip_cons_cons, List.sum_cons]
    rw [mean_sum rho ls ps, diam2vol_eq]
    ring

theorem brown_eq (c : RunCfg) (hc : c.is_comet = false) (k : Kind) (lo hi t : ℝ) (h0 : 0 < lo)
    (h1 : 0 < hi) :
    impactorsBrown lo hi (cfgOf c k).flux.timestep (cfgOf c k).flux * fluxScaling t =
      expectedSmall c k lo hi t := by
  unfold impactorsBrown expectedSmall
  simp only []
  rw [split_eq c hc, fluxScaling_eq]
  have e1 : (cfgOf c k).flux.timestep = c.timestep := by cases k <;> rfl
  have e2 : (cfgOf c k).flux.brown_c0 = c.brown_c0 := by cases k <;> rfl
  have e3 : (cfgOf c k).flux.brown_d0 = c.brown_d0 := by cases k <;> rfl
  have e4 : (cfgOf c k).flux.earth_moon_ratio = c.earth_moon_ratio := by cases k <;> rfl
  have key : ∀ x : ℝ, 0 < x → (10 : ℝ) ^ (c.brown_c0 - c.brown_d0 * logb 10 x) =
      10 ^ c.brown_c0 * x ^ (-c.brown_d0) := by
    intro x hx
    have : c.brown_c0 - c.brown_d0 * logb 10 x = c.brown_c0 + logb 10 x * (-c.brown_d0) := by ring
    rw [this, rpow_add (by norm_num), rpow_mul (by norm_num),
      rpow_logb (by norm_num) (by norm_num) hx]
  rw [e1, e2, e3, e4, key lo h0, key hi h1]
  ring

theorem smallImpactorIce_spec {c : RunCfg} (hc : c.is_comet = false) (k : Kind) (time m : List ℝ)
    (lo hi step slope : ℝ) (hreg : c.impact_regimes.get "b" = .ok (lo, hi, step, slope))
    (h0 : 0 < lo) (hs : 0 < step) (h1 : step ≤ hi - lo)
    (hm : smallImpactorIce (cfgOf c k).flux time = .ok m) :
    ∃ ds ps, Sizes lo hi step slope ds ps ∧
      m = time.map (fun t => meanIce c k (expectedSmall c k lo hi t) ds ps) := by
  have e : PyDict.get (cfgOf c k).flux.impact_regimes "b" = .ok (lo, hi, step, slope) := by
    cases k <;> exact hreg
  unfold smallImpactorIce smallImpactorPop at hm
  rw [e] at hm
  obtain ⟨q, hq, hm⟩ := bind_ok_inv hm
  obtain ⟨q0, hq0, hq⟩ := bind_ok_inv hq
  injection hq0 with hq0
  subst hq0
  obtain ⟨q', hq', hq⟩ := bind_ok_inv hq
  injection hq with hq
  injection hm with hm
  obtain ⟨k1, -⟩ := craterSfd_spec lo hi step slope h0 hs h1 q'.1 q'.2 hq'
  refine ⟨q'.1, q'.2, k1, ?_⟩
  rw [← hm, ← hq]
  unfold iceSmallImpactors
  simp only [List.map_map]
  apply List.map_congr_left
  intro t _
  simp only [Function.comp]
  rw [mass2water_eq, zipWith_scale_left, mean_sum, brown_eq c hc k lo hi t h0 (by linarith),
    waterFrac_eq c hc]
  have e1 : (cfgOf c k).flux.impactor_density = density c k := by cases k <;> rfl
  rw [e1]
  unfold meanIce
  ring

theorem smallCraterIce_spec {c : RunCfg} (h : PhysicalCfg c) (hc : c.is_comet = false) (k : Kind)
    (time m : List ℝ) (lo hi step slope : ℝ)
    (hreg : c.impact_regimes.get "c" = .ok (lo, hi, step, slope))
    (h0 : 0 < lo) (hs : 0 < step) (h1 : step ≤ hi - lo) (h2 : hi ≤ c.simple2complex)
    (hm : smallCraterIce (cfgOf c k).flux time = .ok m) :
    ∃ ds ps ls, Sizes lo hi step slope ds ps ∧
      diam2lenPrieur (ds.map (fun d => d / 1.25)) c.impact_speed_mean (density c k)
        c.target_density c.grav_moon = .ok ls ∧
      m = time.map (fun t => meanIce c k (expected c k lo hi t) ls ps) := by
  unfold smallCraterIce at hm
  obtain ⟨⟨ds, ns, ps⟩, hq, hm⟩ := bind_ok_inv hm
  obtain ⟨k1, k2, k3, k4, k5, k6⟩ := craterPop_spec hc k time "c" lo hi step slope hreg h0 hs h1 ds ns
    ps hq
  have hle : ∀ d ∈ ds, d ≤ hi := by
    intro d hdm
    have hne : ds ≠ [] := by rintro rfl; simp at hdm
    rw [List.getLast?_eq_some_getLast hne, Option.some.injEq] at k6
    rw [← k6]
    obtain ⟨i, hi', rfl⟩ := List.mem_iff_getElem.1 hdm
    rw [List.getLast_eq_getElem]
    rcases Nat.lt_or_ge i (ds.length - 1) with h | h
    · exact (List.pairwise_iff_getElem.1 k4 i (ds.length - 1) hi' (by omega) h).le
    · have : i = ds.length - 1 := by omega
      subst this; exact le_refl _
  have hmap : ds.map (final2transient c.simple2complex c.complex2peakring) =
      ds.map (fun d => d / 1.25) := by
    apply List.map_congr_left
    intro d hdm
    have h3 := (hle d hdm).trans h2
    unfold final2transient f2tMelosh
    simp only []
    rw [if_neg (not_lt.2 (h3.trans h.s2c.2)), if_neg (fun hh => absurd hh.1 (not_lt.2 h3)), if_pos h3,
      if_pos trivial]
  unfold iceSmallCraters diam2len at hm
  simp only [if_true] at hm
  obtain ⟨ls, hls, hm⟩ := bind_ok_inv hm
  injection hm with hm
  have e1 : (cfgOf c k).flux.impactor_density = density c k := by cases k <;> rfl
  refine ⟨ds, ps, ls, k1, ?_, ?_⟩
  · rw [← hls, ← hmap]
    cases k <;> rfl
  · rw [← hm, k3]
    simp only [List.map_map]
    apply List.map_congr_left
    intro t _
    simp only [Function.comp]
    rw [mass2water_eq, zipWith_scale_right, mean_sum, waterFrac_eq c hc, e1]
    unfold meanIce
    ring


/-! ## All ice of a kind -/

theorem addArr_scale (p : ℝ) (a b : List ℝ) :
    addArr (a.map (fun m => p * m)) (b.map (fun m => p * m)) = (addArr a b).map (fun m => p * m) := by
  unfold addArr
  rw [List.zipWith_map, List.map_zipWith]
  congr 1
  funext x y
  ring

theorem addArr_get {a b : List ℝ} {i : Nat} {z : ℝ} (h : (addArr a b)[i]? = some z) :
    ∃ x y, a[i]? = some x ∧ b[i]? = some y ∧ z = x + y := by
  unfold addArr at h
  rw [List.getElem?_zipWith] at h
  split at h
  · rename_i x y hx hy
    exact ⟨x, y, hx, hy, (Option.some.inj h).symm⟩
  · simp at h

theorem addArr_len {n : Nat} {a b : List ℝ} (ha : a.length = n) (hb : b.length = n) :
    (addArr a b).length = n := by
  unfold addArr; rw [List.length_zipWith, ha, hb, Nat.min_self]

theorem perKg_kind (c : RunCfg) (k : Kind) : perKg (cfgOf c k) = perKg c := by cases k <;> rfl

theorem kindIce_spec (g : Gen σ) (hg : LawfulGen g) {c : RunCfg} (h : PhysicalCfg c)
    (hc : c.is_comet = false) (k : Kind) (df : CraterTable)
    (hdf : ∀ r ∈ df, r.rest.crater.isbasin = true → 0 < r.rest.crater.rad)
    (time : List ℝ) (hne : time ≠ []) (s s' : σ) (out : List ℝ)
    (ho : impactIce g (cfgOf c k) df time s = .ok (out, s')) :
    ∃ total, out = total.map (fun m => perKg c * m) ∧ KindIce g c k df time s total s' := by
  have hk := physical_kind h k
  unfold impactIce at ho
  obtain ⟨⟨nb, s2⟩, hn, ho⟩ := bind_ok_inv ho
  obtain ⟨⟨mb, s3⟩, hb, ho⟩ := bind_ok_inv ho
  obtain ⟨tb, htb, ho⟩ := bind_ok_inv ho
  rw [thicknessOf_eq hk, Except.ok.injEq] at htb
  injection ho with ho
  rw [Prod.mk.injEq] at ho
  obtain ⟨rfl, rfl⟩ := ho
  unfold nonBasinIce at hn
  obtain ⟨t1, h1, hn⟩ := bind_ok_inv hn
  obtain ⟨m2, hm2, hn⟩ := bind_ok_inv hn
  obtain ⟨t2, h2, hn⟩ := bind_ok_inv hn
  obtain ⟨m3, hm3, hn⟩ := bind_ok_inv hn
  obtain ⟨t3, h3, hn⟩ := bind_ok_inv hn
  obtain ⟨⟨m4, s1⟩, hm4, hn⟩ := bind_ok_inv hn
  obtain ⟨t4, h4, hn⟩ := bind_ok_inv hn
  obtain ⟨⟨m5, s5⟩, hm5, hn⟩ := bind_ok_inv hn
  obtain ⟨t5, h5, hn⟩ := bind_ok_inv hn
  injection hn with hn
  rw [Prod.mk.injEq] at hn
  obtain ⟨rfl, rfl⟩ := hn
  rw [thicknessOf_eq hk, Except.ok.injEq] at h1 h2 h3 h4 h5
  subst h1 h2 h3 h4 h5 htb
  simp only [perKg_kind]
  have hz : time.map (fun _ => (0 : ℝ)) = (time.map (fun _ => (0 : ℝ))).map (fun m => perKg c * m) := by
    rw [List.map_map]
    apply List.map_congr_left
    intro t _
    simp
  rw [hz]
  simp only [addArr_scale]
  have d := iceStochastic_spec g hg h hc k "d" (Or.inl rfl) time _ _ _ hm4
  have e := iceStochastic_spec g hg h hc k "e" (Or.inr rfl) time _ _ _ hm5
  have b := iceBasins_spec g hg h hc k df hdf time hne _ _ _ hb
  obtain ⟨blo, bhi, bstep, bslope, er, h0, hs, h1, -⟩ := h.regB
  obtain ⟨bds, bps, b1, b2⟩ := smallImpactorIce_spec hc k time m2 blo bhi bstep bslope er h0 hs h1 hm2
  obtain ⟨clo, chi, cstep, cslope, er', h0', hs', h1', h2', h3'⟩ := h.regC
  obtain ⟨cds, cps, ls, c1, c2, c3⟩ :=
    smallCraterIce_spec h hc k time m3 clo chi cstep cslope er' h0' hs' h1' h3' hm3
  have l4 : m4.length = time.length := by
    obtain ⟨o, q, eo, l, -⟩ := iceStochastic_ok g hg hk time "d" (Or.inl rfl) s
    rw [hm4, Except.ok.injEq, Prod.mk.injEq] at eo
    rw [eo.1]; exact l
  have l5 : m5.length = time.length := by
    obtain ⟨o, q, eo, l, -⟩ := iceStochastic_ok g hg hk time "e" (Or.inr rfl) s1
    rw [hm5, Except.ok.injEq, Prod.mk.injEq] at eo
    rw [eo.1]; exact l
  have lb : mb.length = time.length := by
    obtain ⟨_, _, _, _, _, _, l, _⟩ := b
    exact l
  have hmic := micro_eq c hc k time
  rw [hmic, b2, c3]
  obtain ⟨nb, hnb⟩ : ∃ t, t = addArr (addArr (addArr (addArr (addArr (time.map (fun _ => (0 : ℝ)))
    (time.map (fun t => micro c k t))) (time.map (fun t => meanIce c k (expectedSmall c k blo bhi t)
      bds bps))) (time.map (fun t => meanIce c k (expected c k clo chi t) ls cps))) m4) m5 := ⟨_, rfl⟩
  rw [← hnb]
  have lnb : nb.length = time.length := by
    rw [hnb]
    refine addArr_len (addArr_len (addArr_len (addArr_len (addArr_len ?_ ?_) ?_) ?_) l4)
      l5 <;> rw [List.length_map]
  have get : ∀ (i : Nat) t x, time[i]? = some t → nb[i]? = some x → ∃ di ei, m4[i]? = some di ∧
      m5[i]? = some ei ∧ x = micro c k t + meanIce c k (expectedSmall c k blo bhi t) bds bps +
          meanIce c k (expected c k clo chi t) ls cps + di + ei := by
    intro i t x ht hx
    rw [hnb] at hx
    obtain ⟨y5, ei, hx5, he, e5⟩ := addArr_get hx
    obtain ⟨y4, di, hx4, hd, e4⟩ := addArr_get hx5
    obtain ⟨y3, x3, hx3, g3, e3⟩ := addArr_get hx4
    obtain ⟨y2, x2, hx2, g2, e2⟩ := addArr_get hx3
    obtain ⟨y1, x1, g0, g1, e1⟩ := addArr_get hx2
    rw [List.getElem?_map, ht] at g0 g1 g2 g3
    simp only [Option.map_some, Option.some.injEq] at g0 g1 g2 g3
    refine ⟨di, ei, hd, he, ?_⟩
    rw [e5, e4, e3, e2, e1, ← g0, ← g1, ← g2, ← g3, zero_add]
  have eb : (cfgOf c k).impact_ice_basins = c.impact_ice_basins := by cases k <;> rfl
  rw [eb]
  refine ⟨if c.impact_ice_basins then addArr nb mb else nb, by split <;> rfl, m4, s1, m5, s5, mb, d, e,
    b, blo, bhi, bstep, bslope, bds, bps, clo, chi, cstep, cslope, cds, cps, ls, er, b1, er', c1, c2, ?_,
    ?_⟩
  · split
    · exact addArr_len lnb lb
    · exact lnb
  · intro i t x ht hx
    have hi : i < time.length := (List.getElem?_eq_some_iff.1 ht).1
    by_cases hbas : c.impact_ice_basins = true
    · rw [if_pos hbas] at hx
      obtain ⟨y, bi, hy, hbi, rfl⟩ := addArr_get hx
      obtain ⟨di, ei, k1, k2, rfl⟩ := get i t y ht hy
      exact ⟨di, ei, bi, k1, k2, hbi, by rw [if_pos hbas]⟩
    · rw [if_neg hbas] at hx
      obtain ⟨di, ei, k1, k2, rfl⟩ := get i t x ht hx
      exact ⟨di, ei, mb[i]'(by omega), k1, k2, List.getElem?_eq_getElem _, by rw [if_neg hbas, add_zero]⟩

/-! ## Polar ice -/

theorem solarWindIce_spec {c : RunCfg} (h : PhysicalCfg c) (lum : List (ℝ × ℝ)) (time out : List ℝ)
    (ho : solarWindIce c.solar lum time = .ok out) :
    ∃ sun, out = sun.map (fun m => perKg c * m) ∧
      (if c.solar_wind_ice then solarWindMass c.solar lum time = .ok sun
        else sun = List.replicate time.length 0) := by
  unfold solarWindIce at ho
  by_cases hon : c.solar_wind_ice = true
  · rw [if_pos (show c.solar.solar_wind_ice = true from hon)] at ho
    obtain ⟨m, hm, ho⟩ := bind_ok_inv ho
    have ho : thicknessOf c m = .ok out := ho
    rw [thicknessOf_eq h, Except.ok.injEq] at ho
    exact ⟨m, ho.symm, by rw [if_pos hon]; exact hm⟩
  · rw [if_neg (show ¬ c.solar.solar_wind_ice = true from hon), Except.ok.injEq] at ho
    refine ⟨List.replicate time.length 0, ?_, by rw [if_neg hon]⟩
    rw [← ho, List.map_replicate, mul_zero, List.map_const']

theorem perKg_mass {c : RunCfg} (h : PhysicalCfg c) (m : ℝ) :
    perKg c * m * trapArea c * c.ice_density = c.ballistic_hop_effcy * m := by
  have h2 := h.dens
  have h3 : 0 < trapArea c := by
    unfold trapArea
    rcases h.area with ⟨e, h3⟩ | ⟨e, h3⟩
    · rw [if_pos e]; exact h3
    · rw [if_neg (by rw [e]; decide)]; exact h3
  have : perKg c = c.ballistic_hop_effcy / c.ice_density / trapArea c := rfl
  rw [this]
  field_simp

theorem polarIce_spec (g : Gen σ) (hg : LawfulGen g) {c : RunCfg} (h : PhysicalCfg c)
    (hc : c.is_comet = false) (lum : List (ℝ × ℝ)) (df : CraterTable)
    (hdf : ∀ r ∈ df, r.rest.crater.isbasin = true → 0 < r.rest.crater.rad)
    (time : List ℝ) (hne : time ≠ []) (s s' : σ) (out : List ℝ) (hlen : out.length = time.length)
    (ho : polarIce g c lum df time s = .ok (out, s')) :
    PolarIce g c lum df time s out s' := by
  unfold polarIce impactIceComet at ho
  obtain ⟨⟨a, s1⟩, ha, ho⟩ := bind_ok_inv ho
  obtain ⟨⟨b, s2⟩, hb, ho⟩ := bind_ok_inv ho
  obtain ⟨w, hw, ho⟩ := bind_ok_inv ho
  injection ho with ho
  rw [Prod.mk.injEq] at ho
  obtain ⟨ho, rfl⟩ := ho
  obtain ⟨ast, rfl, ka⟩ := kindIce_spec g hg h hc .asteroid df hdf time hne s s1 a ha
  obtain ⟨com, rfl, kc⟩ := kindIce_spec g hg h hc .comet df hdf time hne s1 s2 b hb
  obtain ⟨sun, rfl, ks⟩ := solarWindIce_spec h lum time w hw
  refine ⟨ast, s1, com, sun, ka, kc, ks, hlen, ?_⟩
  intro i x hx
  have hi : i < time.length := by rw [← hlen]; exact (List.getElem?_eq_some_iff.1 hx).1
  obtain ⟨_, _, _, _, _, _, _, _, _, _, _, _, _, _, _, _, _, _, _, _, _, _, _, _, _, _, lc, _⟩ := kc
  rw [← ho] at hx
  obtain ⟨y, z, hy, hz, rfl⟩ := addArr_get hx
  rw [List.getElem?_map] at hz
  obtain ⟨w, hw', rfl⟩ := Option.map_eq_some_iff.1 hz
  by_cases hon : c.impact_ice_comets = true
  · simp only [if_pos hon] at hy ⊢
    obtain ⟨y1, y2, g1, g2, rfl⟩ := addArr_get hy
    rw [List.getElem?_map] at g1 g2
    obtain ⟨a, ha', rfl⟩ := Option.map_eq_some_iff.1 g1
    obtain ⟨b, hb', rfl⟩ := Option.map_eq_some_iff.1 g2
    refine ⟨a, b, w, ha', hb', hw', ?_⟩
    rw [← perKg_mass h]; ring
  · simp only [if_neg hon] at hy ⊢
    rw [List.getElem?_map] at hy
    obtain ⟨a, ha', rfl⟩ := Option.map_eq_some_iff.1 hy
    refine ⟨a, com[i]'(by omega), w, ha', List.getElem?_eq_getElem _, hw', ?_⟩
    rw [← perKg_mass h]; ring

end MoonPIES
