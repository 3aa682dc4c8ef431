import Verif.Props.Impact

/-!
# C76: basin ice and the draws of a complete run

C71 compares the two settings on one crater table.  In a complete run the table itself depends on
the setting.
-/

namespace MoonPIES

open Spec

variable {σ : Type}

/-- Spec: the ice of non-basin asteroids and of non-basin comets in a run over the times `time`. -/
def RunNonBasin (g : Gen σ) (c : RunCfg) (d : RunData) (time asteroid comet : List ℝ) : Prop :=
  ∃ df s s1 m s2 s3, craterBasinList g c d (g.init c.seed) = .ok (df, s) ∧
    nonBasinIce g c time s = .ok (asteroid, s1) ∧ iceBasins g c df time s1 = .ok (m, s2) ∧
    nonBasinIce g c.comet time s2 = .ok (comet, s3)

/-! ## Asteroids -/

theorem rawTable_bounds (g : Gen σ) (c : RunCfg) (b : Bool) (d : RunData) (s : σ) :
    (rawTable g (c.withBasinIce b) d s).map (fun r => (truncA r, truncB r)) =
      (rawTable g c d s).map (fun r => (truncA r, truncB r)) := by
  have key : ∀ (l : List RawCrater) (a a' : List String), a.length = a'.length →
      (List.zipWith (fun r icy => readRow true icy r) l a).map (fun r => (truncA r, truncB r)) =
        (List.zipWith (fun r icy => readRow true icy r) l a').map
          (fun r => (truncA r, truncB r)) := by
    intro l
    induction l with
    | nil => intros; rfl
    | cons x l ih =>
      intro a a' h
      cases a with
      | nil => cases a' with
        | nil => rfl
        | cons _ _ => simp at h
      | cons y a => cases a' with
        | nil => simp at h
        | cons y' a' =>
          simp only [List.zipWith_cons_cons, List.map_cons]
          rw [ih a a' (by simpa using h)]
          rfl
  have hlen : ∀ (i : ImpCfg ℝ) (u : List ℝ), (icyBasins i u).length = u.length := by
    intro i u
    unfold icyBasins hydratedBasins
    simp only []
    split_ifs <;> simp
  unfold rawTable
  rw [List.map_append, List.map_append]
  congr 1
  exact key _ _ _ (by rw [hlen, hlen])

/-- **C76** the state of the generator after the crater table does not depend on basin ice, hence
neither does the ice of non-basin asteroids.  Missing: the same for comets, which is false. -/
theorem C76_asteroids_partial (g : Gen σ) (c : RunCfg) (d : RunData) (time : List ℝ)
    (a1 c1 a2 c2 : List ℝ) (h1 : RunNonBasin g (c.withBasinIce true) d time a1 c1)
    (h2 : RunNonBasin g (c.withBasinIce false) d time a2 c2) : a1 = a2 := by
  have hst : ∀ b df s, craterBasinList g (c.withBasinIce b) d (g.init c.seed) = .ok (df, s) →
      s = (g.truncnormEach ((rawTable g c d (g.init c.seed)).map (fun r => (truncA r, truncB r)))
        (g.random d.basins.length (g.init c.seed)).2).2 := by
    intro b df s h
    rw [← rawTable_bounds g c b d]
    unfold craterBasinList at h
    obtain ⟨x, -, h⟩ := bind_ok_inv h
    cases h
    rfl
  obtain ⟨df, s, s1, m, s2, s3, k1, k2, -⟩ := h1
  obtain ⟨df', s', s1', m', s2', s3', l1, l2, -⟩ := h2
  have e : s = s' := (hst true df s k1).trans (hst false df' s' l1).symm
  subst e
  rw [(C71_non_basin_ice g c _ time s).1] at k2 l2
  rw [k2] at l2
  cases l2
  rfl

/-! ## Comets: a generator whose later draws depend on how many speeds were drawn -/

/-- State 0: before the table.  State 1: no speed drawn since; uniform draws are 1/2.  State 2: a
speed was drawn; the next uniform draws are `1 - ε`.  State 3: uniform draws are 0. -/
noncomputable def latchGen (ε : ℝ) : Gen Nat where
  init _ := 0
  random n s := match s with
    | 0 => (List.replicate n 0, 1)
    | 1 => (List.replicate n (1 / 2), 1)
    | 2 => (List.replicate n (1 - ε), 3)
    | _ => (List.replicate n 0, 3)
  choice l n _ s := (List.replicate n (l.headD 0), s)
  choiceIdx _ n _ s := (List.replicate n 0, s)
  truncnorm a _ n s := (List.replicate n a, if s = 1 ∧ 0 < n then 2 else s)
  truncnormEach l s := (l.map (·.1), s)

theorem latchGen_lawful (ε : ℝ) (h0 : 0 < ε) (h1 : ε ≤ 1) : LawfulGen (latchGen ε) where
  random_length n s := by
    unfold latchGen
    simp only []
    split <;> simp
  random_range n s x hx := by
    unfold latchGen at hx
    simp only [] at hx
    split at hx <;> rw [List.eq_of_mem_replicate hx]
    · norm_num
    · norm_num
    · constructor <;> linarith
    · norm_num
  choice_length l n p s h := by simp [latchGen]
  choice_mem l n p s h x hx := by
    rw [List.eq_of_mem_replicate hx]
    cases l with
    | nil => exact absurd (validProbs_pos h) (by simp)
    | cons a l => simp
  choiceIdx_length k n p s h := by simp [latchGen]
  choiceIdx_lt k n p s h i hi := by
    rw [List.eq_of_mem_replicate hi]; exact validProbs_pos h
  truncnorm_length a b n s h := by simp [latchGen]
  truncnorm_range a b n s h z hz := by
    rw [List.eq_of_mem_replicate hz]
    exact ⟨le_rfl, fun b' hb => (h b' hb).le⟩
  each_length l s h := by simp [latchGen]
  each_range l s h i p z hp hz := by
    simp only [latchGen, List.getElem?_map, hp, Option.map_some, Option.some.injEq] at hz
    subst hz
    exact ⟨le_rfl, (h p (List.mem_of_getElem? hp)).le⟩

/-- No speeds drawn: the state stays. -/
theorem latch_no_speeds (ε : ℝ) (c : RunCfg) (v : List ℝ) (s : Nat)
    (hv : impactorSpeeds (latchGen ε) c 0 1 = .ok (v, s)) : v = [] ∧ s = 1 := by
  unfold impactorSpeeds at hv
  split at hv
  · unfold cometSpeeds at hv
    simp only [] at hv
    split at hv
    · cases hv
    split at hv
    · cases hv
    split at hv
    · cases hv
    split at hv
    · obtain ⟨x, h1, hv⟩ := bind_ok_inv hv
      obtain ⟨y, h2, hv⟩ := bind_ok_inv hv
      obtain ⟨w, h3, hv⟩ := bind_ok_inv hv
      unfold truncnormRvs at h1 h2
      split at h1
      · split at h2
        · simp only [latchGen] at h1 h2 h3
          cases h1
          cases h2
          cases hv
          simp [npChoose] at h3
          simp
        · cases h2
      · cases h1
    · cases hv
  · unfold asteroidSpeeds at hv
    split at hv
    · cases hv
    · unfold truncnormRvs at hv
      split at hv
      · simp only [latchGen] at hv
        cases hv
        simp
      · cases hv

theorem maskSelect_false {α β : Type} (l : List α) (u : List β) :
    maskSelect l (u.map (fun _ => false)) = [] := by
  induction l generalizing u with
  | nil => simp [maskSelect]
  | cons a l ih =>
    cases u with
    | nil => simp [maskSelect]
    | cons b u => simp only [List.map_cons, maskSelect, Bool.false_eq_true, if_false, ih]

theorem maskSelect_true {α β : Type} (l : List α) (u : List β) (h : l.length = u.length) :
    maskSelect l (u.map (fun _ => true)) = l := by
  induction l generalizing u with
  | nil => simp [maskSelect]
  | cons a l ih =>
    cases u with
    | nil => simp at h
    | cons b u => simp only [List.map_cons, maskSelect, if_true, ih u (by simpa using h)]

/-- While no speed is drawn no crater is hydrated, and while no crater is hydrated no speed is
drawn. -/
theorem latch_loop (ε : ℝ) (c : RunCfg) (hp : hydProbCraters c.imp ≤ 1 / 2) (r : String)
    (ds ps : List ℝ) : ∀ (ns : List Int) (out : List ℝ) (s : Nat),
      stochLoop (latchGen ε) c r ds ps ns 1 = .ok (out, s) → s = 1 ∧ ∀ x ∈ out, x = 0
  | [], out, s, h => by
    unfold stochLoop at h
    cases h
    simp
  | n :: ns, out, s, h => by
    unfold stochLoop at h
    obtain ⟨rd, h1, h⟩ := bind_ok_inv h
    simp only [] at h
    have hrd : rd.2 = 1 := by
      unfold choiceOf at h1
      split at h1
      · cases h1; rfl
      · cases h1
    rw [hrd] at h
    have hm : maskSelect rd.1 (hydratedCraters c.imp ((latchGen ε).random rd.1.length 1).1) = [] := by
      have : hydratedCraters c.imp ((latchGen ε).random rd.1.length 1).1 =
          ((latchGen ε).random rd.1.length 1).1.map (fun _ => false) := by
        unfold hydratedCraters
        apply List.map_congr_left
        intro x hx
        have : x = 1 / 2 := List.eq_of_mem_replicate hx
        rw [this, decide_eq_false_iff_not, not_lt]
        exact hp
      rw [this, maskSelect_false]
    rw [hm] at h
    obtain ⟨v, h2, h⟩ := bind_ok_inv h
    obtain ⟨e1, e2⟩ := latch_no_speeds ε c v.1 v.2 h2
    obtain ⟨m, h3, h⟩ := bind_ok_inv h
    rw [e1] at h3
    have hm0 : m = 0 := by
      unfold largeCratersIce at h3
      simp only [List.length_nil, if_true, List.zip_nil_right, List.mapM_nil] at h3
      cases h3
      simp
    obtain ⟨o, h4, h⟩ := bind_ok_inv h
    rw [e2] at h4
    obtain ⟨e3, e4⟩ := latch_loop ε c hp r ds ps ns o.1 o.2 h4
    cases h
    refine ⟨e3, ?_⟩
    intro x hx
    rcases List.mem_cons.1 hx with rfl | hx
    · exact hm0
    · exact e4 x hx

theorem latch_stochastic (ε : ℝ) (c : RunCfg) (hp : hydProbCraters c.imp ≤ 1 / 2)
    (time : List ℝ) (r : String) (out : List ℝ) (s : Nat)
    (h : iceStochastic (latchGen ε) c time r 1 = .ok (out, s)) : s = 1 ∧ ∀ x ∈ out, x = 0 := by
  unfold iceStochastic at h
  obtain ⟨p, h1, h⟩ := bind_ok_inv h
  exact latch_loop ε c hp r _ _ _ out s h

/-- The parts of the ice of non-basin impacts: only the two stochastic ones use the generator. -/
theorem nonBasin_parts {c : RunCfg} (h : PhysicalCfg c) (time : List ℝ) :
    ∃ base, base.length = time.length ∧ ∀ (σ : Type) (g : Gen σ) (s : σ) out s',
      nonBasinIce g c time s = .ok (out, s') → ∃ d s1 e,
        iceStochastic g c time "d" s = .ok (d, s1) ∧ iceStochastic g c time "e" s1 = .ok (e, s') ∧
        out = addArr (addArr base (d.map (fun m => perKg c * m))) (e.map (fun m => perKg c * m)) := by
  have z : NNArr time.length (time.map (fun _ => (0 : ℝ))) :=
    ⟨List.length_map _, fun x hx => by obtain ⟨_, _, rfl⟩ := List.mem_map.1 hx; exact le_refl _⟩
  obtain ⟨a1, e1, n1⟩ := thicknessOf_nn h (followsFlux_nn (C42_micrometeorites c.flux time)
    (C42_micrometeorites_nonneg c.flux (physical_flux h)))
  obtain ⟨mind, maxd, step, slope, er, h0, hs, hst, -⟩ := h.regB
  obtain ⟨today, t0, ht⟩ := C42_small_impactors c.flux (physical_flux h) mind maxd step slope er
    h0 hs hst
  obtain ⟨m2, b2, f2⟩ := ht time
  obtain ⟨a2, e2, n2⟩ := thicknessOf_nn h (followsFlux_nn f2 t0)
  obtain ⟨mind, maxd, step, slope, er, h0, hs, hst, hN, hle⟩ := h.regC
  obtain ⟨today', t0', ht'⟩ := C42_small_craters c.flux (physical_flux h) mind maxd step slope er
    h0 hs hst hN h.mean h.rho h.trho h.grav hle h.s2c.2
  obtain ⟨m3, b3, f3⟩ := ht' time
  obtain ⟨a3, e3, n3⟩ := thicknessOf_nn h (followsFlux_nn f3 t0')
  refine ⟨_, (addArr_nn (addArr_nn (addArr_nn z n1) n2) n3).1, ?_⟩
  intro σ g s out s' hb
  unfold nonBasinIce at hb
  simp only [bind, Except.bind, e1, b2, e2, b3, e3] at hb
  cases h4 : iceStochastic g c time "d" s with
  | error e => rw [h4] at hb; cases hb
  | ok p =>
    rw [h4] at hb
    simp only [thicknessOf_eq h] at hb
    cases h5 : iceStochastic g c time "e" p.2 with
    | error e => rw [h5] at hb; cases hb
    | ok q =>
      rw [h5] at hb
      simp only [] at hb
      cases hb
      exact ⟨p.1, p.2, q.1, rfl, h5, rfl⟩

theorem iceRetention_pos (mode : String) (b : Bool) (v : ℝ) (hv : 0 < v) :
    0 < iceRetention mode b v := by
  have hs : 0 < v * 1e-3 := by positivity
  have h1 : 0 < 36.26 * Real.exp (-0.3464 * (v * 1e-3)) := by positivity
  have h2 : 0 < 1.66e4 * (v * 1e-3) ^ (-4.16 : ℝ) := by
    have := Real.rpow_pos_of_pos hs (-4.16)
    positivity
  unfold iceRetention
  simp only []
  split_ifs <;> first | assumption | linarith

theorem sum_pos_of {l : List ℝ} (hne : l ≠ []) (h : ∀ x ∈ l, 0 < x) : 0 < l.sum := by
  cases l with
  | nil => exact absurd rfl hne
  | cons a l =>
    rw [List.sum_cons]
    have h1 := h a (by simp)
    have h2 : 0 ≤ l.sum := List.sum_nonneg (fun x hx => (h x (by simp [hx])).le)
    linarith

/-- After a speed was drawn, the craters of the first time step are all hydrated. -/
theorem latch_first (ε : ℝ) (h0 : 0 < ε) (h1 : ε ≤ 1) {c : RunCfg} (h : PhysicalCfg c)
    (hp : 0 < hydProbCraters c.imp) (hw : 0 < c.hydrated_wt_pct) (t : ℝ) (ts : List ℝ)
    (hcount : ∀ mind maxd step slope, c.impact_regimes.get "d" = .ok (mind, maxd, step, slope) →
      ε ≤ cometSplit c.flux (numCraters c.flux mind maxd t)) (out : List ℝ) (s : Nat)
    (hout : iceStochastic (latchGen ε) c (t :: ts) "d" 2 = .ok (out, s)) :
    ∃ x l, out = x :: l ∧ 0 < x := by
  have hg := latchGen_lawful ε h0 h1
  obtain ⟨ds, ns, ps, k1, k2, k3, k4, k5, mind, maxd, step, slope, k6, k7⟩ :=
    craterPop_ok h (t :: ts) "d" h.regD
  have hc := hcount _ _ _ _ k6
  unfold iceStochastic at hout
  rw [k1] at hout
  change stochLoop (latchGen ε) c "d" ds ps (List.zipWith probRound ns
    (List.replicate ns.length (1 - ε))) 3 = .ok (out, s) at hout
  rw [k7] at hout
  simp only [List.map_cons, List.length_cons, List.replicate_succ, List.zipWith_cons_cons] at hout
  obtain ⟨n, hn⟩ : ∃ n, n = probRound (cometSplit c.flux (numCraters c.flux mind maxd t)) (1 - ε) :=
    ⟨_, rfl⟩
  have hn1 : 1 ≤ n := by
    rw [hn]
    unfold probRound
    exact Int.le_floor.2 (by push_cast; linarith)
  rw [← hn] at hout
  unfold stochLoop at hout
  obtain ⟨rd, e1, hout⟩ := bind_ok_inv hout
  have hrd : rd = (List.replicate n.toNat (ds.headD 0), 3) := by
    unfold choiceOf at e1
    split at e1
    · cases e1; rfl
    · cases e1
  have hds : 0 < ds.headD 0 := by
    cases ds with
    | nil => exact absurd (validProbs_pos k5) (by simp)
    | cons a l => exact k4 a (by simp)
  simp only [] at hout
  have hm : maskSelect rd.1 (hydratedCraters c.imp ((latchGen ε).random rd.1.length rd.2).1) =
      rd.1 := by
    have : hydratedCraters c.imp ((latchGen ε).random rd.1.length rd.2).1 =
        (List.replicate rd.1.length (0 : ℝ)).map (fun _ => true) := by
      rw [hrd]
      unfold hydratedCraters
      apply List.map_congr_left
      intro x hx
      have : x = 0 := List.eq_of_mem_replicate hx
      rw [this, decide_eq_true_iff]
      exact hp
    rw [this, maskSelect_true _ _ (by simp)]
  rw [hm] at hout
  obtain ⟨v, e2, hout⟩ := bind_ok_inv hout
  obtain ⟨v', s', e2', l1, l2⟩ := impactorSpeeds_ok (latchGen ε) hg h rd.1.length
    ((latchGen ε).random rd.1.length rd.2).2
  rw [e2] at e2'
  cases e2'
  obtain ⟨m, e3, hout⟩ := bind_ok_inv hout
  obtain ⟨o, e4, hout⟩ := bind_ok_inv hout
  cases hout
  refine ⟨_, _, rfl, ?_⟩
  simp only [] at e3 l1 l2
  unfold largeCratersIce at e3
  rw [if_pos l1.symm] at e3
  obtain ⟨ms, m1, m2, -, m3⟩ := largeMasses_ok h "d" (by simp) (rd.1.zip v') (by
    intro p hp
    refine ⟨?_, l2 _ (List.of_mem_zip hp).2⟩
    have := (List.of_mem_zip hp).1
    rw [hrd] at this
    rw [List.eq_of_mem_replicate this]
    exact hds)
  rw [m1] at e3
  cases e3
  apply sum_pos_of
  · intro hms
    rw [hms, List.length_zip, l1, Nat.min_self, hrd] at m2
    simp only [List.length_nil, List.length_replicate] at m2
    omega
  · exact m3 hw (fun p hp => iceRetention_pos _ _ _ (l2 _ (List.of_mem_zip hp).2))

theorem icy_on (c : ImpCfg ℝ) (hb : c.basins = true) (hp : 0 < hydProbBasins c)
    (hf : c.cometFrac ≤ 1) (n : Nat) :
    icyBasins c (List.replicate n 0) = List.replicate n "hyd_ctype" := by
  unfold icyBasins hydratedBasins
  simp only [hb, if_true, List.map_replicate]
  have h1 : decide ((0 : ℝ) < hydProbBasins c) = true := decide_eq_true hp
  have h2 : decide ((0 : ℝ) > 1 - c.cometFrac) = false := decide_eq_false (by linarith)
  rw [h1, h2]
  simp

theorem icy_off (c : ImpCfg ℝ) (hb : c.basins = false) (u : List ℝ) :
    ∀ x ∈ icyBasins c u, x = "no" := by
  unfold icyBasins hydratedBasins
  simp [hb]

theorem run_rest (g : Gen σ) (c : RunCfg) (d : RunData) (hs : SortDesc d.sortAges) (s s' : σ)
    (df : CraterTable) (h : craterBasinList g c d s = .ok (df, s')) :
    (df.map (·.rest)).Perm ((rawTable g c d s).map (·.rest)) := by
  obtain ⟨z, mid, h1, rfl⟩ := craterBasinList_inv g c d s s' df h
  rw [← newAges_rest _ _ _ _ _ h1]
  exact (hs mid).1.map _

/-- With basin ice on, speeds are drawn for the asteroid basins. -/
theorem latch_on (ε : ℝ) {c : RunCfg} (d : RunData) (hs : SortDesc d.sortAges) (hd : d.basins ≠ [])
    (hb : c.impact_ice_basins = true) (hp : 0 < hydProbBasins c.imp) (hf : c.comet_ast_frac ≤ 1)
    (hcomet : c.is_comet = false) (df : CraterTable) (s s2 : Nat) (time m : List ℝ)
    (h : craterBasinList (latchGen ε) c d 0 = .ok (df, s))
    (h2 : iceBasins (latchGen ε) c df time 1 = .ok (m, s2)) : s = 1 ∧ s2 = 2 := by
  constructor
  · unfold craterBasinList at h
    obtain ⟨x, -, h⟩ := bind_ok_inv h
    cases h
    rfl
  · have hpos : 0 < (icyRows c df).length := by
      rw [List.length_pos_iff_exists_mem]
      obtain ⟨raw, rest, hraw⟩ := List.exists_cons_of_ne_nil hd
      have hm : (readRow true "hyd_ctype" raw).rest ∈ (rawTable (latchGen ε) c d 0).map (·.rest) := by
        apply List.mem_map_of_mem
        unfold rawTable
        apply List.mem_append_right
        rw [show ((latchGen ε).random d.basins.length 0).1 = List.replicate d.basins.length 0 from rfl,
          icy_on c.imp hb hp hf, hraw]
        simp [List.replicate_succ]
      obtain ⟨r, hr, e⟩ := List.mem_map.1 ((run_rest _ c d hs _ _ df h).mem_iff.2 hm)
      refine ⟨r, List.mem_filter.2 ⟨hr, ?_⟩⟩
      rw [e, hcomet]
      rfl
    unfold iceBasins at h2
    simp only [] at h2
    obtain ⟨v, h3, h2⟩ := bind_ok_inv h2
    obtain ⟨_, -, h2⟩ := bind_ok_inv h2
    obtain ⟨_, -, h2⟩ := bind_ok_inv h2
    cases h2
    unfold impactorSpeeds at h3
    rw [hcomet] at h3
    simp only [Bool.false_eq_true, if_false] at h3
    unfold asteroidSpeeds truncnormRvs at h3
    split at h3
    · cases h3
    split at h3
    · cases h3
      exact if_pos ⟨rfl, hpos⟩
    · cases h3

/-- With basin ice off, none is. -/
theorem latch_off (ε : ℝ) {c : RunCfg} (d : RunData) (hs : SortDesc d.sortAges)
    (hb : c.impact_ice_basins = false) (df : CraterTable) (s s2 : Nat) (time m : List ℝ)
    (h : craterBasinList (latchGen ε) c d 0 = .ok (df, s))
    (h2 : iceBasins (latchGen ε) c df time 1 = .ok (m, s2)) : s = 1 ∧ s2 = 1 := by
  constructor
  · unfold craterBasinList at h
    obtain ⟨x, -, h⟩ := bind_ok_inv h
    cases h
    rfl
  · have hno : ∀ r ∈ df, r.rest.icy = "no" := by
      intro r hr
      obtain ⟨q, hq, e⟩ := List.mem_map.1
        ((run_rest _ c d hs _ _ df h).mem_iff.1 (List.mem_map_of_mem hr))
      rw [← e]
      unfold rawTable at hq
      rcases List.mem_append.1 hq with hq | hq
      · obtain ⟨raw, -, rfl⟩ := List.mem_map.1 hq
        rfl
      · rw [← List.map_uncurry_zip_eq_zipWith] at hq
        obtain ⟨p, hp, rfl⟩ := List.mem_map.1 hq
        exact icy_off c.imp hb _ _ (List.of_mem_zip hp).2
    have hnil : icyRows c df = [] := by
      unfold icyRows
      simp only []
      rw [List.filter_eq_nil_iff]
      intro r hr
      rw [hno r hr]
      cases c.is_comet <;> simp
    unfold iceBasins at h2
    simp only [hnil, List.length_nil] at h2
    obtain ⟨v, h3, h2⟩ := bind_ok_inv h2
    obtain ⟨_, -, h2⟩ := bind_ok_inv h2
    obtain ⟨_, -, h2⟩ := bind_ok_inv h2
    cases h2
    exact (latch_no_speeds ε c v.1 v.2 h3).2

theorem nonBasin_state (ε : ℝ) {c : RunCfg} (h : PhysicalCfg c) (hp : hydProbCraters c.imp ≤ 1 / 2)
    (time out : List ℝ) (s : Nat) (hn : nonBasinIce (latchGen ε) c time 1 = .ok (out, s)) : s = 1 := by
  obtain ⟨base, -, hb⟩ := nonBasin_parts h time
  obtain ⟨d, s1, e, h1, h2, -⟩ := hb Nat _ _ _ _ hn
  obtain ⟨rfl, -⟩ := latch_stochastic ε c hp time "d" d s1 h1
  exact (latch_stochastic ε c hp time "e" e s h2).1

theorem physical_flag {c : RunCfg} (h : PhysicalCfg c) (b : Bool) :
    PhysicalCfg (c.withBasinIce b) := { h with }

theorem data_flag {c : RunCfg} {d : RunData} (h : PhysicalData c d) (b : Bool) :
    PhysicalData (c.withBasinIce b) d := { h with }

theorem runnable_flag {c : RunCfg} {d : RunData} (h : Runnable c d) (b : Bool) :
    Runnable (c.withBasinIce b) d := { h with }

theorem runNonBasin_exists (g : Gen σ) (hg : LawfulGen g) {c : RunCfg} {d : RunData}
    (hc : PhysicalCfg c) (hd : PhysicalData c d) (hr : Runnable c d) (time : List ℝ)
    (hne : time ≠ []) : ∃ a b, RunNonBasin g c d time a b := by
  obtain ⟨df, s, h1, -⟩ := craterBasinList_ok g hg hc hd hr (g.init c.seed)
  obtain ⟨a, s1, h2, -⟩ := nonBasinIce_ok g hg hc time s
  obtain ⟨m, s2, h3, -⟩ := iceBasins_ok g hg hc df (craterBasinList_rad g hd _ _ df h1) time hne s1
  obtain ⟨b, s3, h4, -⟩ := nonBasinIce_ok g hg (physical_comet hc) time s2
  exact ⟨a, b, df, s, s1, m, s2, s3, h1, h2, h3, h4⟩

/-- **C76 refuted**: in complete runs with the default configuration and the shipped data, basin
ice changes the ice of non-basin comets: with the switch on, speeds are drawn for the icy basins,
with it off for none, and all later draws shift. -/
theorem C76_refuted :
    ¬ ∀ (σ : Type) (g : Gen σ) (c : RunCfg) (d : RunData) (time a1 c1 a2 c2 : List ℝ),
      LawfulGen g → PhysicalCfg c → PhysicalData c d → Runnable c d →
      getTimeArray c.timestart c.timeend c.timestep = .ok time →
      RunNonBasin g (c.withBasinIce true) d time a1 c1 →
      RunNonBasin g (c.withBasinIce false) d time a2 c2 → c1 = c2 := by
  intro H
  obtain ⟨c, hc⟩ : ∃ c, c = RunCfg.default 1 := ⟨_, rfl⟩
  obtain ⟨d, hd⟩ : ∃ d, d = shippedData [] sortDesc id id := ⟨_, rfl⟩
  have pc : PhysicalCfg c := by rw [hc]; exact default_physical 1
  have pd : PhysicalData c d := by rw [hc, hd]; exact default_data _ _ _ _ sortDesc_spec 1
  have pr : Runnable c d := by rw [hc, hd]; exact default_runnable _ _ _ _ 1
  obtain ⟨time, ht, hne, -⟩ := timeArray_last pc pr
  obtain ⟨t, ts, rfl⟩ := List.exists_cons_of_ne_nil hne
  obtain ⟨x, hx⟩ : ∃ x, x = cometSplit c.comet.flux (numCraters c.comet.flux 1.5e3 15e3 t) := ⟨_, rfl⟩
  have hx0 : 0 < x := by
    have hN := C42_neukum_decreasing c.comet.flux (by rw [hc]; rfl) (by rw [hc]; rfl) 1.5e3 15e3
      (by norm_num) (by norm_num) (by norm_num)
    have a1 : 0 < neukum c.comet.flux 1.5e3 - neukum c.comet.flux 15e3 := by linarith
    have a2 : 0 < c.comet.flux.sa_moon := by
      rw [hc]; have := Real.pi_pos
      change 0 < (RunCfg.default 1).sa_moon
      simp only [RunCfg.default]; positivity
    have a3 : 0 < c.comet.flux.timestep := pc.ts
    have a4 := C42_flux_scaling.2.2.2 t
    have a5 : 0 < c.comet.flux.comet_ast_frac := by
      rw [hc]; change 0 < (RunCfg.default 1).comet_ast_frac; norm_num [RunCfg.default]
    rw [hx]
    unfold cometSplit numCraters
    rw [if_pos (show c.comet.flux.is_comet = true from rfl)]
    positivity
  obtain ⟨ε, hε⟩ : ∃ ε, ε = min 1 x := ⟨_, rfl⟩
  have e0 : 0 < ε := by rw [hε]; exact lt_min one_pos hx0
  have e1 : ε ≤ 1 := by rw [hε]; exact min_le_left _ _
  have hg := latchGen_lawful ε e0 e1
  obtain ⟨a1, c1, r1⟩ := runNonBasin_exists (latchGen ε) hg (physical_flag pc true)
    (data_flag pd true) (runnable_flag pr true) (t :: ts) hne
  obtain ⟨a2, c2, r2⟩ := runNonBasin_exists (latchGen ε) hg (physical_flag pc false)
    (data_flag pd false) (runnable_flag pr false) (t :: ts) hne
  have heq := H Nat (latchGen ε) c d (t :: ts) a1 c1 a2 c2 hg pc pd pr ht r1 r2
  obtain ⟨df1, s1, s1', m1, s1'', u1, k1, k2, k3, k4⟩ := r1
  obtain ⟨df2, s2, s2', m2, s2'', u2, l1, l2, l3, l4⟩ := r2
  have hpa : ∀ b, hydProbCraters (c.withBasinIce b).imp ≤ 1 / 2 := by
    intro b
    rw [hc]
    simp only [RunCfg.withBasinIce, RunCfg.imp, hydProbCraters, RunCfg.default]
    norm_num
  have hpb : 0 < hydProbBasins (c.withBasinIce true).imp := by
    rw [hc]
    simp only [RunCfg.withBasinIce, RunCfg.imp, hydProbBasins, RunCfg.default]
    norm_num
  have hpc : hydProbCraters c.comet.imp ≤ 1 / 2 ∧ 0 < hydProbCraters c.comet.imp := by
    rw [hc]
    simp only [RunCfg.comet, RunCfg.imp, hydProbCraters, RunCfg.default]
    norm_num
  have hbn : d.basins ≠ [] := by
    rw [hd]
    simp [shippedData, basinFile]
  -- states
  have st1 : s1 = 1 := by
    unfold craterBasinList at k1
    obtain ⟨x, -, h⟩ := bind_ok_inv k1
    cases h
    rfl
  have st2 : s2 = 1 := by
    unfold craterBasinList at l1
    obtain ⟨x, -, h⟩ := bind_ok_inv l1
    cases h
    rfl
  subst st1 st2
  obtain rfl := nonBasin_state ε (physical_flag pc true) (hpa true) _ _ _ k2
  obtain rfl := nonBasin_state ε (physical_flag pc false) (hpa false) _ _ _ l2
  obtain ⟨-, rfl⟩ := latch_on ε d pd.sorted hbn rfl hpb pc.caf1 (by rw [hc]; rfl) df1 _ _ _ _ k1 k3
  obtain ⟨-, rfl⟩ := latch_off ε d pd.sorted rfl df2 _ _ _ _ l1 l3
  rw [(C71_non_basin_ice _ c true _ _).2] at k4
  rw [(C71_non_basin_ice _ c false _ _).2] at l4
  obtain ⟨base, hbase, hparts⟩ := nonBasin_parts (physical_comet pc) (t :: ts)
  obtain ⟨d1, v1, f1, p1, p2, p3⟩ := hparts Nat _ _ _ _ k4
  obtain ⟨d2, v2, f2, q1, q2, q3⟩ := hparts Nat _ _ _ _ l4
  obtain ⟨rfl, z1⟩ := latch_stochastic ε c.comet hpc.1 _ _ _ _ q1
  obtain ⟨-, z2⟩ := latch_stochastic ε c.comet hpc.1 _ _ _ _ q2
  obtain ⟨y, l, hy, hy0⟩ := latch_first ε e0 e1 (physical_comet pc) hpc.2
    (by rw [hc]; change 0 < (RunCfg.default 1).comet_hydrated_wt_pct; norm_num [RunCfg.default]) t ts
    (by
      intro mind maxd step slope hreg
      have hreg' : c.comet.impact_regimes.get "d" = .ok (1.5e3, 15e3, 1e2, -1.8) := by rw [hc]; rfl
      rw [hreg'] at hreg
      cases hreg
      rw [← hx, hε]
      exact min_le_right _ _) d1 v1 p1
  obtain ⟨o1, w1, g1, g2, g3⟩ := iceStochastic_ok _ hg (physical_comet pc) (t :: ts) "e" (by simp) v1
  rw [p2] at g1
  cases g1
  obtain ⟨o2, w2, g4, g5, g6⟩ := iceStochastic_ok _ hg (physical_comet pc) (t :: ts) "d" (by simp) 1
  rw [q1] at g4
  cases g4
  obtain ⟨o3, w3, g7, g8, g9⟩ := iceStochastic_ok _ hg (physical_comet pc) (t :: ts) "e" (by simp) 1
  rw [q2] at g7
  cases g7
  have hk := perKg_pos (physical_comet pc)
  have ht0 := congrArg (fun l : List ℝ => l[0]?) heq
  rw [p3, q3, hy] at ht0
  obtain ⟨b0, base', rfl⟩ := List.exists_cons_of_ne_nil (l := base) (by rintro rfl; simp at hbase)
  obtain ⟨y1, f1', rfl⟩ := List.exists_cons_of_ne_nil (l := f1) (by rintro rfl; simp at g2)
  obtain ⟨y2, d2', rfl⟩ := List.exists_cons_of_ne_nil (l := d2) (by rintro rfl; simp at g5)
  obtain ⟨y3, f2', rfl⟩ := List.exists_cons_of_ne_nil (l := f2) (by rintro rfl; simp at g8)
  simp only [addArr, List.map_cons, List.zipWith_cons_cons, List.getElem?_cons_zero,
    Option.some.injEq] at ht0
  rw [z1 y2 (by simp), z2 y3 (by simp)] at ht0
  have n1 := mul_pos hk hy0
  have n2 := mul_nonneg hk.le (g3 y1 (by simp))
  linarith

/-- C76 speaks of existing runs: both settings with the default configuration and shipped data. -/
example : ∃ a1 c1 a2 c2,
    RunNonBasin constGen ((RunCfg.default 1).withBasinIce true) (shippedData [] sortDesc id id)
      [4000000000, 3800000000] a1 c1 ∧
    RunNonBasin constGen ((RunCfg.default 1).withBasinIce false) (shippedData [] sortDesc id id)
      [4000000000, 3800000000] a2 c2 := by
  have pd := default_data [] sortDesc id id sortDesc_spec 1
  have pr := default_runnable [] sortDesc id id 1
  obtain ⟨a1, c1, h1⟩ := runNonBasin_exists constGen constGen_lawful
    (physical_flag (default_physical 1) true) (data_flag pd true) (runnable_flag pr true)
    [4000000000, 3800000000] (by simp)
  obtain ⟨a2, c2, h2⟩ := runNonBasin_exists constGen constGen_lawful
    (physical_flag (default_physical 1) false) (data_flag pd false) (runnable_flag pr false)
    [4000000000, 3800000000] (by simp)
  exact ⟨a1, c1, a2, c2, h1, h2⟩

end MoonPIES
