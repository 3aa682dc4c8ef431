import Verif.Spec.Impact
import Verif.Lemmas.Except
import Verif.Props.Flux
import Verif.Props.Sfd
import Verif.Props.Scaling
import Verif.Props.Random
import Verif.Props.Retention
import Verif.Props.IceThick
import Verif.Props.AgesToTime
import Verif.Props.Solar
import Verif.Props.Volcanic

/-!
# The impact ice functions return non-negative arrays
-/

namespace MoonPIES

variable {σ : Type}

theorem physical_comet {c : RunCfg} (h : PhysicalCfg c) : PhysicalCfg c.comet where
  area := h.area
  hop := h.hop
  dens := h.dens
  ts := h.ts
  mm := h.mm
  chw := h.chw
  cmr := h.cmr
  hw := h.chw
  imr := h.cmr
  cf := h.cf
  ch := h.ch
  caf := h.caf
  caf1 := h.caf1
  d0 := h.d0
  em := h.em
  sa := h.sa
  rho := h.crho
  crho := h.crho
  trho := h.trho
  grav := h.grav
  angle := h.angle
  s2c := h.s2c
  regB := h.regB
  regC := h.regC
  regD := h.regD
  regE := h.regE
  mean := h.mean
  sd := h.sd
  esc := h.esc
  jsd := h.jsd
  lsd := h.lsd
  jmin := h.jmin
  lmin := h.lmin
  crange := h.crange
  jfrac := h.jfrac
  lfrac := h.lfrac
  fracs := h.fracs

theorem physical_flux {c : RunCfg} (h : PhysicalCfg c) : NonnegCfg c.flux where
  mm := h.mm
  chw := h.chw
  cmr := h.cmr
  hw := h.hw
  imr := h.imr
  cf := h.cf
  ch := h.ch
  caf := h.caf
  caf1 := h.caf1
  ts := h.ts.le
  d0 := h.d0
  em := h.em
  sa := h.sa
  rho := h.rho.le

/-! ## Thickness -/

/-- The area used for the configured species. -/
theorem physical_area {c : RunCfg} (h : PhysicalCfg c) : ∃ a, AreaOf c.ice a ∧ 0 < a := by
  rcases h.area with ⟨h1, h2⟩ | ⟨h1, h2⟩
  · exact ⟨_, Or.inl ⟨h1, rfl⟩, h2⟩
  · exact ⟨_, Or.inr ⟨h1, rfl⟩, h2⟩

/-- Metres of ice per kilogram delivered. -/
noncomputable def perKg (c : RunCfg) : ℝ :=
  c.ballistic_hop_effcy / c.ice_density /
    (if c.ice_species = "H2O" then c.coldtrap_area_H2O else c.coldtrap_area_CO2)

theorem perKg_pos {c : RunCfg} (h : PhysicalCfg c) : 0 < perKg c := by
  unfold perKg
  have h1 := h.hop
  have h2 := h.dens
  rcases h.area with ⟨e, h3⟩ | ⟨e, h3⟩
  · rw [if_pos e]; positivity
  · rw [if_neg (by rw [e]; decide)]; positivity

theorem thicknessOf_eq {c : RunCfg} (h : PhysicalCfg c) (l : List ℝ) :
    thicknessOf c l = .ok (l.map (fun m => perKg c * m)) := by
  unfold thicknessOf
  apply mapM_eq_map
  intro m _
  unfold perKg
  rcases h.area with ⟨e, -⟩ | ⟨e, -⟩
  · rw [iceThickness_eq c.ice c.coldtrap_area_H2O m (Or.inl ⟨e, rfl⟩), if_pos e]
    congr 1
    change m * c.ballistic_hop_effcy / c.ice_density / _ = _
    ring
  · rw [iceThickness_eq c.ice c.coldtrap_area_CO2 m (Or.inr ⟨e, rfl⟩), if_neg (by rw [e]; decide)]
    congr 1
    change m * c.ballistic_hop_effcy / c.ice_density / _ = _
    ring

/-! ## Speeds -/

theorem truncnormRvs_ok (g : Gen σ) (hg : LawfulGen g) (a : ℝ) (b : Option ℝ) (loc scale : ℝ)
    (n : Nat) (s : σ) (hab : ∀ b', b = some b' → a < b') (hs : 0 ≤ scale) :
    ∃ v, truncnormRvs g a b loc scale n s = .ok (v, (g.truncnorm a b n s).2) ∧ v.length = n ∧
      ∀ x ∈ v, loc + scale * a ≤ x := by
  unfold truncnormRvs
  rw [if_pos ⟨hab, hs⟩]
  refine ⟨_, rfl, by simp [hg.truncnorm_length a b n s hab], ?_⟩
  intro x hx
  obtain ⟨z, hz, rfl⟩ := List.mem_map.1 hx
  have := (hg.truncnorm_range a b n s hab z hz).1
  have := mul_le_mul_of_nonneg_left this hs
  linarith

/-- Speeds of asteroids and comets: as many as asked for, all positive. -/
theorem impactorSpeeds_ok (g : Gen σ) (hg : LawfulGen g) {c : RunCfg} (h : PhysicalCfg c) (n : Nat)
    (s : σ) : ∃ v s', impactorSpeeds g c n s = .ok (v, s') ∧ v.length = n ∧ ∀ x ∈ v, 0 < x := by
  unfold impactorSpeeds
  split
  · unfold cometSpeeds
    have e1 : c.speed.jfcSd ≠ 0 := h.jsd.ne'
    have e2 : c.speed.lpcSd ≠ 0 := h.lsd.ne'
    have e3 : c.jfc_frac + c.lpc_frac ≠ 0 := h.fracs.ne'
    have hw : ValidProbs 2 [c.jfc_frac / (c.jfc_frac + c.lpc_frac),
        c.lpc_frac / (c.jfc_frac + c.lpc_frac)] := by
      refine ⟨rfl, ?_, ?_⟩
      · intro x hx
        simp only [List.mem_cons, List.not_mem_nil, or_false] at hx
        rcases hx with rfl | rfl
        · exact div_nonneg h.jfrac h.fracs.le
        · exact div_nonneg h.lfrac h.fracs.le
      · simp only [List.sum_cons, List.sum_nil, add_zero]
        rw [← add_div, div_self e3]
    rw [if_neg e1, if_neg e2, if_neg e3]
    simp only []
    rw [if_pos hw]
    obtain ⟨ch, hch⟩ : ∃ t, t = g.choiceIdx 2 n [c.jfc_frac / (c.jfc_frac + c.lpc_frac),
        c.lpc_frac / (c.jfc_frac + c.lpc_frac)] s := ⟨_, rfl⟩
    have hj : -c.comet_speed_min / c.jfc_speed_sd < c.comet_speed_max / c.jfc_speed_sd := by
      rw [div_lt_div_iff_of_pos_right h.jsd]; linarith [h.crange]
    have hl : -c.comet_speed_min / c.lpc_speed_sd < c.comet_speed_max / c.lpc_speed_sd := by
      rw [div_lt_div_iff_of_pos_right h.lsd]; linarith [h.crange]
    obtain ⟨v1, k1, k2, k3⟩ := truncnormRvs_ok g hg (-c.comet_speed_min / c.jfc_speed_sd)
      (some (c.comet_speed_max / c.jfc_speed_sd)) c.jfc_speed_mean c.jfc_speed_sd n ch.2
      (by rintro b' hb; rw [Option.some.injEq] at hb; rw [← hb]; exact hj) h.jsd.le
    obtain ⟨s1, hs1⟩ : ∃ t, t = (g.truncnorm (-c.comet_speed_min / c.jfc_speed_sd)
      (some (c.comet_speed_max / c.jfc_speed_sd)) n ch.2).2 := ⟨_, rfl⟩
    obtain ⟨v2, l1, l2, l3⟩ := truncnormRvs_ok g hg (-c.comet_speed_min / c.lpc_speed_sd)
      (some (c.comet_speed_max / c.lpc_speed_sd)) c.lpc_speed_mean c.lpc_speed_sd n s1
      (by rintro b' hb; rw [Option.some.injEq] at hb; rw [← hb]; exact hl) h.lsd.le
    rw [← hs1] at k1
    have hlen : ch.1.length = n := by rw [hch]; exact hg.choiceIdx_length _ _ _ _ hw
    have hlt : ∀ i ∈ ch.1, i < [v1, v2].length := by
      rw [hch]; exact hg.choiceIdx_lt _ _ _ _ hw
    obtain ⟨out, o1, o2, o3⟩ := C31_samples ch.1 [v1, v2] hlt (by
      intro col hcol
      simp only [List.mem_cons, List.not_mem_nil, or_false] at hcol
      rcases hcol with rfl | rfl
      · rw [k2, hlen]
      · rw [l2, hlen])
    refine ⟨out, (g.truncnorm (-c.comet_speed_min / c.lpc_speed_sd)
      (some (c.comet_speed_max / c.lpc_speed_sd)) n s1).2, ?_, by rw [o2, hlen], ?_⟩
    · rw [hch] at k1 o1
      change (truncnormRvs g (-c.comet_speed_min / c.jfc_speed_sd)
        (some (c.comet_speed_max / c.jfc_speed_sd)) c.jfc_speed_mean c.jfc_speed_sd n
        (g.choiceIdx 2 n [c.jfc_frac / (c.jfc_frac + c.lpc_frac),
        c.lpc_frac / (c.jfc_frac + c.lpc_frac)] s).2).bind _ = _
      rw [k1]
      change (truncnormRvs g (-c.comet_speed_min / c.lpc_speed_sd)
        (some (c.comet_speed_max / c.lpc_speed_sd)) c.lpc_speed_mean c.lpc_speed_sd n s1).bind _ = _
      rw [l1]
      change (npChoose (g.choiceIdx 2 n [c.jfc_frac / (c.jfc_frac + c.lpc_frac),
        c.lpc_frac / (c.jfc_frac + c.lpc_frac)] s).1 [v1, v2]).bind _ = _
      rw [o1]
      rfl
    · intro x hx
      obtain ⟨i, hi⟩ := List.mem_iff_getElem?.1 hx
      have hil : i < ch.1.length := by
        rw [← o2]; exact (List.getElem?_eq_some_iff.1 hi).1
      obtain ⟨col, hc1, hc2⟩ := o3 i ch.1[i] x (List.getElem?_eq_getElem hil) hi
      have hcol : col = v1 ∨ col = v2 := by
        have := List.mem_of_getElem? hc1
        simpa using this
      have hm := List.mem_of_getElem? hc2
      have hd1 : c.jfc_speed_sd * (-c.comet_speed_min / c.jfc_speed_sd) = -c.comet_speed_min :=
        mul_div_cancel₀ _ h.jsd.ne'
      have hd2 : c.lpc_speed_sd * (-c.comet_speed_min / c.lpc_speed_sd) = -c.comet_speed_min :=
        mul_div_cancel₀ _ h.lsd.ne'
      rcases hcol with rfl | rfl
      · have := k3 x hm
        rw [hd1] at this; linarith [h.jmin]
      · have := l3 x hm
        rw [hd2] at this; linarith [h.lmin]
  · unfold asteroidSpeeds
    rw [if_neg (show c.speed.speedSd ≠ 0 from h.sd.ne')]
    obtain ⟨v, k1, k2, k3⟩ := truncnormRvs_ok g hg
      ((c.escape_vel - c.impact_speed_mean) / c.impact_speed_sd) none c.impact_speed_mean
      c.impact_speed_sd n s (by simp) h.sd.le
    refine ⟨v, _, k1, k2, ?_⟩
    intro x hx
    have := k3 x hx
    rw [mul_div_cancel₀ _ h.sd.ne'] at this
    linarith [h.esc]

/-! ## One impact -/

theorem final2transient_pos {a b d : ℝ} (hd : 0 < d) : 0 < final2transient a b d := by
  unfold final2transient
  simp only []
  by_cases h1 : b < d
  · rw [if_pos h1]; exact croft_pos d hd
  rw [if_neg h1]
  by_cases h2 : a < d
  · rw [if_pos ⟨h2, not_lt.1 h1⟩]; exact melosh_complex_pos d hd
  rw [if_neg (fun h => h2 h.1), if_pos (not_lt.1 h2)]
  unfold f2tMelosh
  simp only [if_true]
  positivity

theorem largeCraterIce_ok {c : RunCfg} (h : PhysicalCfg c) (regime : String)
    (hr : regime = "d" ∨ regime = "e" ∨ regime = "f") (d v : ℝ) (hd : 0 < d) (hv : 0 < v) :
    ∃ m, largeCraterIce c regime d v = .ok m ∧ 0 ≤ m ∧
      (0 < c.hydrated_wt_pct → 0 < iceRetention c.mode c.is_comet v → 0 < m) := by
  have ht : 0 < final2transient c.simple2complex c.complex2peakring d := final2transient_pos hd
  obtain ⟨L, hL, hpos⟩ : ∃ L, diam2lenOne c.scale d v regime = .ok L ∧ 0 < L := by
    unfold diam2lenOne
    simp only []
    rcases hr with rfl | rfl | rfl
    · rw [if_neg (by decide), if_pos rfl]
      exact ⟨_, rfl, (C39_collins_inverse _ _ _ _ _ _ ht hv h.rho h.trho h.grav h.angle.1
        h.angle.2).1⟩
    · rw [if_neg (by decide), if_neg (by decide), if_pos (Or.inl rfl)]
      exact ⟨_, rfl, (C39_johnson_inverse _ _ _ _ _ _ _ ht hv h.rho h.trho h.grav h.s2c.1 h.angle.1
        h.angle.2).1⟩
    · rw [if_neg (by decide), if_neg (by decide), if_pos (Or.inr rfl)]
      exact ⟨_, rfl, (C39_johnson_inverse _ _ _ _ _ _ _ ht hv h.rho h.trho h.grav h.s2c.1 h.angle.1
        h.angle.2).1⟩
  have hvol : 0 < diam2vol L := by unfold diam2vol; positivity
  have hret := (C33_range_partial c.mode c.is_comet v).1
  have hm : 0 < diam2vol L * c.impactor_density := mul_pos hvol h.rho
  refine ⟨_, ?_, mul_nonneg (mul_nonneg hm.le h.hw) hret, fun h1 h2 => ?_⟩
  · unfold largeCraterIce
    rw [hL]; rfl
  · positivity

theorem largeMasses_ok {c : RunCfg} (h : PhysicalCfg c) (regime : String)
    (hr : regime = "d" ∨ regime = "e" ∨ regime = "f") (l : List (ℝ × ℝ))
    (hl : ∀ p ∈ l, 0 < p.1 ∧ 0 < p.2) :
    ∃ ms, l.mapM (fun p => largeCraterIce c regime p.1 p.2) = .ok ms ∧ ms.length = l.length ∧
      (∀ m ∈ ms, 0 ≤ m) ∧
      (0 < c.hydrated_wt_pct → (∀ p ∈ l, 0 < iceRetention c.mode c.is_comet p.2) →
        ∀ m ∈ ms, 0 < m) := by
  have hok : ∀ p ∈ l, ∃ m, largeCraterIce c regime p.1 p.2 = .ok m := fun p hp =>
    let ⟨m, hm, _⟩ := largeCraterIce_ok h regime hr p.1 p.2 (hl p hp).1 (hl p hp).2
    ⟨m, hm⟩
  obtain ⟨ms, h1, h2, h3⟩ := mapM_ok (fun p : ℝ × ℝ => largeCraterIce c regime p.1 p.2) l hok
  have key : ∀ m ∈ ms, ∃ p ∈ l, largeCraterIce c regime p.1 p.2 = .ok m := by
    intro m hm
    obtain ⟨i, hi⟩ := List.mem_iff_getElem?.1 hm
    have hil : i < l.length := by rw [← h2]; exact (List.getElem?_eq_some_iff.1 hi).1
    obtain ⟨b, hb1, hb2⟩ := h3 i l[i] (List.getElem?_eq_getElem hil)
    rw [hi, Option.some.injEq] at hb1
    exact ⟨l[i], List.getElem_mem hil, hb1 ▸ hb2⟩
  refine ⟨ms, h1, h2, fun m hm => ?_, fun hw hret m hm => ?_⟩
  · obtain ⟨p, hp, e⟩ := key m hm
    obtain ⟨m', e', h0, -⟩ := largeCraterIce_ok h regime hr p.1 p.2 (hl p hp).1 (hl p hp).2
    rw [e, Except.ok.injEq] at e'
    rw [e']; exact h0
  · obtain ⟨p, hp, e⟩ := key m hm
    obtain ⟨m', e', -, h0⟩ := largeCraterIce_ok h regime hr p.1 p.2 (hl p hp).1 (hl p hp).2
    rw [e, Except.ok.injEq] at e'
    rw [e']; exact h0 hw (hret p hp)

theorem maskSelect_mem {α : Type} : ∀ (l : List α) (m : List Bool), ∀ x ∈ maskSelect l m, x ∈ l
  | [], m, x, h => by simp [maskSelect] at h
  | a :: l, [], x, h => by simp [maskSelect] at h
  | a :: l, b :: m, x, h => by
    unfold maskSelect at h
    split at h
    · rcases List.mem_cons.1 h with rfl | h
      · simp
      · exact List.mem_cons_of_mem _ (maskSelect_mem l m x h)
    · exact List.mem_cons_of_mem _ (maskSelect_mem l m x h)

/-! ## Regimes -/

theorem craterPop_ok {c : RunCfg} (h : PhysicalCfg c) (time : List ℝ) (regime : String)
    (hreg : RegimeOK (c.impact_regimes.get regime)
      (fun lo hi => neukum c.flux hi ≤ neukum c.flux lo)) :
    ∃ ds ns ps, craterPop c.flux time regime = .ok (ds, ns, ps) ∧ ns.length = time.length ∧
      (∀ n ∈ ns, 0 ≤ n) ∧ (∀ d ∈ ds, 0 < d) ∧ ValidProbs ds.length ps ∧ 
      ∃ mind maxd step slope, c.impact_regimes.get regime = .ok (mind, maxd, step, slope) ∧
        ns = time.map (fun t => cometSplit c.flux (numCraters c.flux mind maxd t)) := by
  obtain ⟨mind, maxd, step, slope, e, h0, hs, h1, hN⟩ := hreg
  obtain ⟨ds, ps, w, k1, k2, k3, k4, -, k5, -, -, -, k6, k7, -⟩ :=
    C41_crater_sfd_partial mind maxd step slope h0 hs h1
  have hpos : ∀ d ∈ ds, 0 < d := by
    intro d hd
    obtain ⟨t, rfl⟩ : ∃ t, ds = mind :: t := by
      cases ds with
      | nil => simp at k4
      | cons a t => simp only [List.head?_cons, Option.some.injEq] at k4; exact ⟨t, by rw [k4]⟩
    rcases List.mem_cons.1 hd with rfl | hd
    · exact h0
    · exact h0.trans ((List.pairwise_cons.1 k5).1 d hd)
  refine ⟨ds, _, ps, ?_, List.length_map _, ?_, hpos, ⟨k3, fun x hx => (k6 x hx).le, k7⟩,
    mind, maxd, step, slope, e, rfl⟩
  · unfold craterPop
    rw [show PyDict.get c.flux.impact_regimes regime = _ from e]
    change (craterSfd mind maxd step slope).bind _ = _
    rw [k1]
    rfl
  · intro n hn
    obtain ⟨t, -, rfl⟩ := List.mem_map.1 hn
    have hc : 0 ≤ numCraters c.flux mind maxd t := by
      unfold numCraters
      simp only []
      have a1 : 0 ≤ neukum c.flux mind - neukum c.flux maxd := by linarith
      have a2 : 0 ≤ c.flux.sa_moon := h.sa
      have a3 : 0 ≤ c.flux.timestep := h.ts.le
      have a4 := (C42_flux_scaling.2.2.2 t).le
      positivity
    unfold cometSplit
    have b1 : 0 ≤ c.flux.comet_ast_frac := h.caf
    have b2 : c.flux.comet_ast_frac ≤ 1 := h.caf1
    split_ifs
    · exact mul_nonneg hc b1
    · exact mul_nonneg hc (by linarith)
    · exact hc

theorem probRound_nonneg {x u : ℝ} (hx : 0 ≤ x) (hu : 0 ≤ u) : 0 ≤ probRound x u :=
  Int.floor_nonneg.2 (by linarith)

theorem stochLoop_ok (g : Gen σ) (hg : LawfulGen g) {c : RunCfg} (h : PhysicalCfg c)
    (regime : String) (hr : regime = "d" ∨ regime = "e" ∨ regime = "f") (ds ps : List ℝ)
    (hds : ∀ d ∈ ds, 0 < d) (hps : ValidProbs ds.length ps) :
    ∀ (ns : List Int) (s : σ), (∀ n ∈ ns, 0 ≤ n) →
      ∃ out s', stochLoop g c regime ds ps ns s = .ok (out, s') ∧ out.length = ns.length ∧
        ∀ x ∈ out, 0 ≤ x
  | [], s, _ => ⟨[], s, rfl, rfl, by simp⟩
  | n :: ns, s, hn => by
    obtain ⟨rd, hrd⟩ : ∃ t, t = g.choice ds n.toNat ps s := ⟨_, rfl⟩
    have hc : choiceOf g ds n ps s = .ok rd := by
      unfold choiceOf
      rw [if_pos ⟨hps, hn n (by simp)⟩, hrd]
    obtain ⟨u, hu⟩ : ∃ t, t = g.random rd.1.length rd.2 := ⟨_, rfl⟩
    obtain ⟨hd, hhd⟩ : ∃ t, t = maskSelect rd.1 (hydratedCraters c.imp u.1) := ⟨_, rfl⟩
    have hdpos : ∀ d ∈ hd, 0 < d := by
      intro d hm
      rw [hhd] at hm
      have := maskSelect_mem _ _ d hm
      rw [hrd] at this
      exact hds d (hg.choice_mem _ _ _ _ hps d this)
    obtain ⟨v, s1, v1, v2, v3⟩ := impactorSpeeds_ok g hg h hd.length u.2
    obtain ⟨ms, m1, m2, m3, -⟩ := largeMasses_ok h regime hr (hd.zip v) (by
      intro p hp
      exact ⟨hdpos _ (List.of_mem_zip hp).1, v3 _ (List.of_mem_zip hp).2⟩)
    obtain ⟨out, s2, o1, o2, o3⟩ := stochLoop_ok g hg h regime hr ds ps hds hps ns s1
      (fun n hm => hn n (by simp [hm]))
    refine ⟨ms.sum :: out, s2, ?_, by simp [o2], ?_⟩
    · unfold stochLoop
      rw [hc]
      change (impactorSpeeds g c (maskSelect rd.1 (hydratedCraters c.imp
        (g.random rd.1.length rd.2).1)).length (g.random rd.1.length rd.2).2).bind _ = _
      rw [← hu, ← hhd, v1]
      change (largeCratersIce c (maskSelect rd.1 (hydratedCraters c.imp
        (g.random rd.1.length rd.2).1)) v regime).bind _ = _
      rw [← hu, ← hhd]
      unfold largeCratersIce
      rw [if_pos v2.symm, m1]
      change (stochLoop g c regime ds ps ns s1).bind _ = _
      rw [o1]
      rfl
    · intro x hx
      rcases List.mem_cons.1 hx with rfl | hx
      · exact List.sum_nonneg m3
      · exact o3 x hx

theorem zipWith_probRound_nonneg (ns u : List ℝ) (hn : ∀ n ∈ ns, 0 ≤ n) (hu : ∀ x ∈ u, 0 ≤ x) :
    ∀ k ∈ List.zipWith probRound ns u, (0 : Int) ≤ k := by
  intro k hk
  rw [← List.map_uncurry_zip_eq_zipWith] at hk
  obtain ⟨p, hp, rfl⟩ := List.mem_map.1 hk
  exact probRound_nonneg (hn _ (List.of_mem_zip hp).1) (hu _ (List.of_mem_zip hp).2)

theorem iceStochastic_ok (g : Gen σ) (hg : LawfulGen g) {c : RunCfg} (h : PhysicalCfg c)
    (time : List ℝ) (regime : String) (hr : regime = "d" ∨ regime = "e") (s : σ) :
    ∃ out s', iceStochastic g c time regime s = .ok (out, s') ∧ out.length = time.length ∧
      ∀ x ∈ out, 0 ≤ x := by
  have hreg : RegimeOK (c.impact_regimes.get regime)
      (fun lo hi => neukum c.flux hi ≤ neukum c.flux lo) := by
    rcases hr with rfl | rfl
    · exact h.regD
    · exact h.regE
  obtain ⟨ds, ns, ps, k1, k2, k3, k4, k5, -⟩ := craterPop_ok h time regime hreg
  obtain ⟨u, hu⟩ : ∃ t, t = g.random ns.length s := ⟨_, rfl⟩
  have hul : u.1.length = ns.length := by rw [hu]; exact hg.random_length _ _
  obtain ⟨out, s', o1, o2, o3⟩ := stochLoop_ok g hg h regime (by tauto) ds ps k4 k5
    (List.zipWith probRound ns u.1) u.2 (zipWith_probRound_nonneg ns u.1 k3 (by
      rw [hu]; exact fun x hx => (hg.random_range _ _ x hx).1))
  refine ⟨out, s', ?_, ?_, o3⟩
  · unfold iceStochastic
    rw [k1]
    change stochLoop g c regime ds ps (List.zipWith probRound ns (g.random ns.length s).1)
      (g.random ns.length s).2 = _
    rw [← hu]; exact o1
  · rw [o2, List.length_zipWith, hul, k2, Nat.min_self]

/-! ## Arrays of the run -/

/-- An array of `n` non-negative values. -/
def NNArr (n : Nat) (l : List ℝ) : Prop := l.length = n ∧ ∀ x ∈ l, 0 ≤ x

theorem addArr_nn {n : Nat} {a b : List ℝ} (ha : NNArr n a) (hb : NNArr n b) :
    NNArr n (addArr a b) := by
  refine ⟨by unfold addArr; rw [List.length_zipWith, ha.1, hb.1, Nat.min_self], ?_⟩
  intro x hx
  unfold addArr at hx
  rw [← List.map_uncurry_zip_eq_zipWith] at hx
  obtain ⟨p, hp, rfl⟩ := List.mem_map.1 hx
  exact add_nonneg (ha.2 _ (List.of_mem_zip hp).1) (hb.2 _ (List.of_mem_zip hp).2)

theorem thicknessOf_nn {c : RunCfg} (h : PhysicalCfg c) {n : Nat} {l : List ℝ} (hl : NNArr n l) :
    ∃ a, thicknessOf c l = .ok a ∧ NNArr n a := by
  refine ⟨_, thicknessOf_eq h l, by rw [List.length_map, hl.1], ?_⟩
  intro x hx
  obtain ⟨m, hm, rfl⟩ := List.mem_map.1 hx
  exact mul_nonneg (perKg_pos h).le (hl.2 m hm)

theorem followsFlux_nn {today : ℝ} {time out : List ℝ} (h : FollowsFlux today time out)
    (h0 : 0 ≤ today) : NNArr time.length out := by
  refine ⟨h.1, fun x hx => ?_⟩
  obtain ⟨i, hi⟩ := List.mem_iff_getElem?.1 hx
  have hil : i < time.length := by rw [← h.1]; exact (List.getElem?_eq_some_iff.1 hi).1
  have := h.2 i time[i] (List.getElem?_eq_getElem hil)
  rw [hi, Option.some.injEq] at this
  rw [this]
  exact mul_nonneg h0 (C42_flux_scaling.2.2.2 _).le

theorem foldl_add_nonneg (l : List ℝ) : ∀ a : ℝ, 0 ≤ a → (∀ x ∈ l, 0 ≤ x) →
    0 ≤ l.foldl (· + ·) a := by
  induction l with
  | nil => intro a ha _; exact ha
  | cons x l ih =>
    intro a ha hl
    exact ih (a + x) (add_nonneg ha (hl x (by simp))) (fun y hy => hl y (by simp [hy]))

open Classical in
theorem iceBasins_ok (g : Gen σ) (hg : LawfulGen g) {c : RunCfg} (h : PhysicalCfg c)
    (df : CraterTable) (hdf : ∀ r ∈ df, r.rest.crater.isbasin = true → 0 < r.rest.crater.rad)
    (time : List ℝ) (hne : time ≠ []) (s : σ) :
    ∃ out s', iceBasins g c df time s = .ok (out, s') ∧ NNArr time.length out := by
  obtain ⟨bdf, hbdf⟩ : ∃ t, t = icyRows c df := ⟨_, rfl⟩
  have hb : ∀ r ∈ bdf, 0 < r.rest.crater.rad := by
    intro r hr
    rw [hbdf] at hr
    have := (List.mem_filter.1 hr)
    exact hdf r this.1 (by have := this.2; rw [Bool.and_eq_true] at this; exact this.1)
  obtain ⟨v, s1, v1, v2, v3⟩ := impactorSpeeds_ok g hg h bdf.length s
  obtain ⟨ms, m1, m2, m3, -⟩ := largeMasses_ok h "f" (by simp)
    ((bdf.map (fun r => 2 * r.rest.crater.rad)).zip v) (by
      intro p hp
      obtain ⟨r, hr, e⟩ := List.mem_map.1 (List.of_mem_zip hp).1
      exact ⟨by rw [← e]; have := hb r hr; positivity, v3 _ (List.of_mem_zip hp).2⟩)
  obtain ⟨out, o1, o2, o3⟩ := C15_nearest_placement RunCfg.rtol time hne
    ((bdf.map (·.age)).zip ms) (· + ·) 0
  refine ⟨out, s1, ?_, o2, ?_⟩
  · unfold iceBasins
    simp only []
    rw [← hbdf, v1]
    change (((bdf.map (fun r => 2 * r.rest.crater.rad)).zip v).mapM
      (fun p => largeCraterIce c "f" p.1 p.2)).bind _ = _
    rw [m1]
    change (ages2time RunCfg.rtol time ((bdf.map (·.age)).zip ms) (· + ·) 0).bind _ = _
    rw [o1]
    rfl
  · intro x hx
    obtain ⟨i, hi⟩ := List.mem_iff_getElem?.1 hx
    have hil : i < time.length := by rw [← o2]; exact (List.getElem?_eq_some_iff.1 hi).1
    rw [o3 i hil, Option.some.injEq] at hi
    rw [← hi]
    apply foldl_add_nonneg _ _ (le_refl _)
    intro y hy
    obtain ⟨p, hp, rfl⟩ := List.mem_map.1 hy
    exact m3 _ (List.of_mem_zip (List.mem_filter.1 hp).1).2

theorem nonBasinIce_ok (g : Gen σ) (hg : LawfulGen g) {c : RunCfg} (h : PhysicalCfg c)
    (time : List ℝ) (s : σ) :
    ∃ out s', nonBasinIce g c time s = .ok (out, s') ∧ NNArr time.length out := by
  have z : NNArr time.length (time.map (fun _ => (0 : ℝ))) :=
    ⟨List.length_map _, fun x hx => by obtain ⟨_, _, rfl⟩ := List.mem_map.1 hx; exact le_refl _⟩
  obtain ⟨a1, e1, n1⟩ := thicknessOf_nn h (followsFlux_nn (C42_micrometeorites c.flux time)
    (C42_micrometeorites_nonneg c.flux (physical_flux h)))
  obtain ⟨mind, maxd, step, slope, er, h0, hs, hst, -⟩ := h.regB
  obtain ⟨today, t0, ht⟩ := C42_small_impactors c.flux (physical_flux h) mind maxd step slope er
    h0 hs hst
  obtain ⟨m2, b2, f2⟩ := ht time
  obtain ⟨a2, e2, n2⟩ := thicknessOf_nn h (followsFlux_nn f2 t0)
  obtain ⟨mind, maxd, step, slope, er, h0, hs, hst, hN, hle⟩ := h.regC
  obtain ⟨today', t0', ht'⟩ := C42_small_craters c.flux (physical_flux h) mind maxd step slope er
    h0 hs hst hN h.mean h.rho h.trho h.grav hle h.s2c.2
  obtain ⟨m3, b3, f3⟩ := ht' time
  obtain ⟨a3, e3, n3⟩ := thicknessOf_nn h (followsFlux_nn f3 t0')
  obtain ⟨m4, s4, b4, l4, k4⟩ := iceStochastic_ok g hg h time "d" (by simp) s
  obtain ⟨a4, e4, n4⟩ := thicknessOf_nn h (show NNArr time.length m4 from ⟨l4, k4⟩)
  obtain ⟨m5, s5, b5, l5, k5⟩ := iceStochastic_ok g hg h time "e" (by simp) s4
  obtain ⟨a5, e5, n5⟩ := thicknessOf_nn h (show NNArr time.length m5 from ⟨l5, k5⟩)
  refine ⟨_, s5, ?_, addArr_nn (addArr_nn (addArr_nn (addArr_nn (addArr_nn z n1) n2) n3) n4) n5⟩
  unfold nonBasinIce
  simp only [bind, Except.bind, e1, b2, e2, b3, e3, b4, e4, b5, e5]

theorem impactIce_ok (g : Gen σ) (hg : LawfulGen g) {c : RunCfg} (h : PhysicalCfg c)
    (df : CraterTable) (hdf : ∀ r ∈ df, r.rest.crater.isbasin = true → 0 < r.rest.crater.rad)
    (time : List ℝ) (hne : time ≠ []) (s : σ) :
    ∃ out s', impactIce g c df time s = .ok (out, s') ∧ NNArr time.length out := by
  obtain ⟨a, s1, e1, n1⟩ := nonBasinIce_ok g hg h time s
  obtain ⟨m, s2, e2, n2⟩ := iceBasins_ok g hg h df hdf time hne s1
  obtain ⟨b, e3, n3⟩ := thicknessOf_nn h n2
  refine ⟨if c.impact_ice_basins then addArr a b else a, s2, ?_, ?_⟩
  · unfold impactIce
    simp only [bind, Except.bind, e1, e2, e3]
  · split
    · exact addArr_nn n1 n3
    · exact n1

theorem solarRate_ok (mode : String) (h : mode.toLower = "benna" ∨ mode.toLower = "lucey-hurley") :
    ∃ r : ℝ, solarRate mode = .ok r ∧ 0 ≤ r := by
  unfold solarRate
  rcases h with h | h
  · rw [if_pos h]; exact ⟨_, rfl, by norm_num⟩
  · rw [if_neg (by rw [h]; decide), if_pos h]; exact ⟨_, rfl, by norm_num⟩

theorem solarWindIce_ok {c : RunCfg} {d : RunData} (h : PhysicalCfg c) (hd : PhysicalData c d)
    (time : List ℝ) :
    ∃ out, solarWindIce c.solar (readLuminosity d.lum) time = .ok out ∧ NNArr time.length out := by
  unfold solarWindIce
  by_cases hon : c.solar_wind_ice = true
  · obtain ⟨hm, hf⟩ := hd.solar hon
    rw [if_pos (show c.solar.solar_wind_ice = true from hon)]
    obtain ⟨r, er, r0⟩ := solarRate_ok _ hm
    have hts := h.ts
    have hmass : ∃ m, solarWindMass c.solar (readLuminosity d.lum) time = .ok m ∧
        NNArr time.length m := by
      unfold solarWindMass
      rw [show solarRate c.solar.solar_wind_mode = .ok r from er]
      have hs0 : 0 ≤ r * 60 * 60 * 24 * 365 * c.solar.timestep := by
        change 0 ≤ r * 60 * 60 * 24 * 365 * c.timestep
        positivity
      simp only [bind, Except.bind]
      by_cases hy : c.faint_young_sun = true
      · rw [if_pos (show c.solar.faint_young_sun = true from hy)]
        obtain ⟨hne, hnn⟩ := hf hy
        obtain ⟨l, hl⟩ : ∃ l, l = (readLuminosity d.lum).map (fun r => (-r.1, r.2)) := ⟨_, rfl⟩
        have hlne : l ≠ [] := by rw [hl]; simpa [readLuminosity] using hne
        have hl0 : ∀ p ∈ l, 0 ≤ p.2 := by
          rw [hl]
          intro p hp
          obtain ⟨q, hq, rfl⟩ := List.mem_map.1 hp
          unfold readLuminosity at hq
          obtain ⟨q', hq', rfl⟩ := List.mem_map.1 hq
          exact hnn q' hq'
        have hall : ∀ t : ℝ, ∃ y, npInterp (-t) l = some y ∧ 0 ≤ y := by
          intro t
          obtain ⟨y, hy⟩ : ∃ y, npInterp (-t) l = some y := by
            cases l with
            | nil => exact absurd rfl hlne
            | cons p rest => exact ⟨_, rfl⟩
          refine ⟨y, hy, (npInterp_between (-t) 0 ((l.map (·.2)).sum) y l hy ?_).1⟩
          intro p hp
          refine ⟨hl0 p hp, List.single_le_sum ?_ _ (List.mem_map_of_mem hp)⟩
          intro x hx
          obtain ⟨q, hq, rfl⟩ := List.mem_map.1 hx
          exact hl0 q hq
        rw [← hl]
        obtain ⟨out, o1, o2, o3⟩ := mapM_ok (fun t => match npInterp (-t) l with
          | some y => Except.ok (1 * (r * 60 * 60 * 24 * 365 * c.solar.timestep) * y)
          | none => .error PyErr.valueError) time (by
            intro t _
            obtain ⟨y, hy, -⟩ := hall t
            exact ⟨_, by simp only [hy]; rfl⟩)
        refine ⟨out, ?_, o2, ?_⟩
        · rw [← o1]
          congr 1
          funext t
          obtain ⟨y, hy, -⟩ := hall t
          simp only [hy]
        intro x hx
        obtain ⟨i, hi⟩ := List.mem_iff_getElem?.1 hx
        have hil : i < time.length := by rw [← o2]; exact (List.getElem?_eq_some_iff.1 hi).1
        obtain ⟨b, hb1, hb2⟩ := o3 i time[i] (List.getElem?_eq_getElem hil)
        rw [hi, Option.some.injEq] at hb1
        obtain ⟨y, hy, y0⟩ := hall time[i]
        simp only [hy, Except.ok.injEq] at hb2
        rw [hb1, ← hb2]
        positivity
      · rw [if_neg (show ¬ c.solar.faint_young_sun = true from hy)]
        refine ⟨_, rfl, List.length_map _, ?_⟩
        intro x hx
        obtain ⟨_, _, rfl⟩ := List.mem_map.1 hx
        rw [one_mul]; exact hs0
    obtain ⟨m, e, n⟩ := hmass
    rw [e]
    exact thicknessOf_nn h n
  · rw [if_neg (show ¬ c.solar.solar_wind_ice = true from hon)]
    exact ⟨_, rfl, List.length_map _, fun x hx => by
      obtain ⟨_, _, rfl⟩ := List.mem_map.1 hx; exact le_refl _⟩

theorem polarIce_ok (g : Gen σ) (hg : LawfulGen g) {c : RunCfg} {d : RunData} (h : PhysicalCfg c)
    (hd : PhysicalData c d) (df : CraterTable)
    (hdf : ∀ r ∈ df, r.rest.crater.isbasin = true → 0 < r.rest.crater.rad)
    (time : List ℝ) (hne : time ≠ []) (s : σ) :
    ∃ out s', polarIce g c (readLuminosity d.lum) df time s = .ok (out, s') ∧
      NNArr time.length out := by
  obtain ⟨a, s1, e1, n1⟩ := impactIce_ok g hg h df hdf time hne s
  obtain ⟨b, s2, e2, n2⟩ := impactIce_ok g hg (physical_comet h) df hdf time hne s1
  obtain ⟨w, e3, n3⟩ := solarWindIce_ok h hd time
  refine ⟨addArr (if c.impact_ice_comets then addArr a b else a) w, s2, ?_, addArr_nn ?_ n3⟩
  · unfold polarIce impactIceComet
    simp only [bind, Except.bind, e1, e2, e3]
  · split
    · exact addArr_nn n1 n2
    · exact n1

theorem volcanicIce_ok {c : RunCfg} {d : RunData} (h : PhysicalCfg c) (hd : PhysicalData c d)
    (time : List ℝ) :
    ∃ out, volcanicIce c.volc_mode c.ice c.head (fun x => (roundHalfEven x : ℝ)) d.sortNk
      RunCfg.rtol c.timestep time d.nk = .ok out ∧ NNArr time.length out := by
  obtain ⟨hm, v1, v2, v3, v4, v5, -⟩ := hd.volc
  rw [(C46_mode _ _ _ _ _ _ _ _ _).1 hm]
  apply thicknessOf_nn h
  refine ⟨by simp [volcanicHead], ?_⟩
  intro x hx
  unfold volcanicHead at hx
  obtain ⟨t, _, rfl⟩ := List.mem_map.1 hx
  have hts := h.ts.le
  change 0 ≤ (if t ≤ c.volc_late.1 ∧ t > c.volc_late.2 then
    c.volc_total_vol * c.volc_magma_density * c.volc_ice_ppm * (1 / 1000000) * c.volc_late_pct *
      c.timestep
    else if t ≤ c.volc_early.1 ∧ t > c.volc_early.2 then
    c.volc_total_vol * c.volc_magma_density * c.volc_ice_ppm * (1 / 1000000) * c.volc_early_pct *
      c.timestep else 0)
  split_ifs
  · positivity
  · positivity
  · exact le_refl _

theorem iceColsTime_ok {c : RunCfg} {d : RunData} (h : PhysicalCfg c) (hd : PhysicalData c d)
    {n : Nat} {polar volc : List ℝ} (hp : NNArr n polar) (hv : NNArr n volc) :
    ∃ rows, iceColsTime c.cols d.hop polar volc = .ok rows ∧ rows.length = n ∧
      ∀ row ∈ rows, NNArr c.coldtrap_names.length row := by
  have hhop := h.hop
  have hsh : ∃ pv, volcShare c.cols polar volc = .ok pv ∧ NNArr n pv.1 ∧ NNArr n pv.2 := by
    unfold volcShare
    by_cases hu : c.use_volc_dep_effcy = true
    · rw [if_pos (show c.cols.use_volc_dep_effcy = true from hu),
        if_neg (show c.cols.ballistic_hop_effcy ≠ 0 from hhop.ne')]
      refine ⟨_, rfl, hp, by simp [hv.1], ?_⟩
      intro x hx
      obtain ⟨v, hm, rfl⟩ := List.mem_map.1 hx
      exact mul_nonneg (hv.2 v hm) (div_nonneg hd.volc.2.2.2.2.2.2 hhop.le)
    · rw [if_neg (show ¬ c.cols.use_volc_dep_effcy = true from hu)]
      refine ⟨_, rfl, addArr_nn hp hv, by simp [hv.1], ?_⟩
      intro x hx
      obtain ⟨v, hm, rfl⟩ := List.mem_map.1 hx
      rw [mul_zero]
  obtain ⟨pv, e1, np, nv⟩ := hsh
  have htr : ∃ rows, trapRows c.cols d.hop pv.1 = .ok rows ∧ rows.length = n ∧
      ∀ row ∈ rows, NNArr c.coldtrap_names.length row := by
    unfold trapRows
    by_cases hm : c.ballistic_hop_moores = true
    · rw [if_pos (show c.cols.ballistic_hop_moores = true from hm)]
      obtain ⟨bh, b1, b2, b3⟩ := mapM_ok (fun n => PyDict.get d.hop n) c.coldtrap_names
        (fun n hn => let ⟨x, hx, _⟩ := hd.hops hm n hn; ⟨x, hx⟩)
      have hb0 : ∀ b ∈ bh, 0 ≤ b := by
        intro b hb
        obtain ⟨i, hi⟩ := List.mem_iff_getElem?.1 hb
        have hil : i < c.coldtrap_names.length := by
          rw [← b2]; exact (List.getElem?_eq_some_iff.1 hi).1
        obtain ⟨y, y1, y2⟩ := b3 i _ (List.getElem?_eq_getElem hil)
        rw [hi, Option.some.injEq] at y1
        obtain ⟨z, z1, z2⟩ := hd.hops hm _ (List.getElem_mem hil)
        rw [z1, Except.ok.injEq] at y2
        rw [y1, ← y2]; exact z2
      have hbe : hopColdtraps d.hop c.cols.coldtrap_names = .ok bh := b1
      rw [hbe]
      refine ⟨_, rfl, by simp [np.1], ?_⟩
      intro row hrow
      obtain ⟨p, hpm, rfl⟩ := List.mem_map.1 hrow
      refine ⟨by simp [b2], ?_⟩
      intro x hx
      obtain ⟨b, hb, rfl⟩ := List.mem_map.1 hx
      exact mul_nonneg (div_nonneg (hb0 b hb) hhop.le) (np.2 p hpm)
    · rw [if_neg (show ¬ c.cols.ballistic_hop_moores = true from hm)]
      refine ⟨_, rfl, by simp [np.1], ?_⟩
      intro row hrow
      obtain ⟨p, hpm, rfl⟩ := List.mem_map.1 hrow
      refine ⟨List.length_replicate, ?_⟩
      intro x hx
      rw [List.eq_of_mem_replicate hx]
      exact np.2 p hpm
  obtain ⟨rows, e2, r1, r2⟩ := htr
  refine ⟨List.zipWith (fun row v => row.map (fun p => p + v)) rows pv.2, ?_, ?_, ?_⟩
  · unfold iceColsTime
    simp only [bind, Except.bind, e1, e2]
  · rw [List.length_zipWith, r1, nv.1, Nat.min_self]
  · intro row hrow
    rw [← List.map_uncurry_zip_eq_zipWith] at hrow
    obtain ⟨p, hpm, rfl⟩ := List.mem_map.1 hrow
    have k1 := r2 _ (List.of_mem_zip hpm).1
    have k2 := nv.2 _ (List.of_mem_zip hpm).2
    refine ⟨by simp [Function.uncurry, k1.1], ?_⟩
    intro x hx
    obtain ⟨y, hy, rfl⟩ := List.mem_map.1 hx
    exact add_nonneg (k1.2 y hy) k2

/-- `get_ice_cols_time` succeeds: one row per time with one non-negative value per cold trap. -/
theorem iceCols_ok (g : Gen σ) (hg : LawfulGen g) {c : RunCfg} {d : RunData} (h : PhysicalCfg c)
    (hd : PhysicalData c d) (df : CraterTable)
    (hdf : ∀ r ∈ df, r.rest.crater.isbasin = true → 0 < r.rest.crater.rad)
    (time : List ℝ) (hne : time ≠ []) (s : σ) :
    ∃ rows s', iceCols g c d df time s = .ok (rows, s') ∧ rows.length = time.length ∧
      ∀ row ∈ rows, NNArr c.coldtrap_names.length row := by
  obtain ⟨p, s1, e1, n1⟩ := polarIce_ok g hg h hd df hdf time hne s
  obtain ⟨v, e2, n2⟩ := volcanicIce_ok h hd time
  obtain ⟨rows, e3, l3, n3⟩ := iceColsTime_ok h hd n1 n2
  refine ⟨rows, s1, ?_, l3, n3⟩
  unfold iceCols
  simp only [bind, Except.bind, e1, e2, e3]

end MoonPIES
