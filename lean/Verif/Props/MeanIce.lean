import Verif.Spec.MeanIce
import Verif.Lemmas.Sources
import Verif.Props.Split
import Verif.Props.SpeedLaw
import Verif.Lemmas.Shipped

/-!
# C136: the mean of the ice of drawn craters
-/

namespace MoonPIES

open MeasureTheory Spec Real

variable {σ : Type}

/-! ## Means over independent draws -/

theorem meanDraws_const (ν : Measure ℝ) [IsProbabilityMeasure ν] (a : ℝ) :
    ∀ n, meanDraws ν n (fun _ => a) = a
  | 0 => rfl
  | n + 1 => by
    unfold meanDraws
    simp [meanDraws_const ν a n]

/-- Speeds: the mean of a sum is the sum of the means. -/
theorem meanDraws_total (m : ℝ → ℝ → ℝ) (ν : Measure ℝ) [IsProbabilityMeasure ν] :
    ∀ (icy : List ℝ) (_ : ∀ d ∈ icy, Integrable (m d) ν) (a : ℝ),
      meanDraws ν icy.length (fun vs => a + total m icy vs) =
        a + (icy.map (fun d => ∫ v, m d v ∂ν)).sum
  | [], _, a => by simp [meanDraws, total]
  | d :: icy, h, a => by
    have ih : ∀ a, meanDraws ν icy.length (fun vs => a + total m icy vs) =
        a + (icy.map (fun d => ∫ v, m d v ∂ν)).sum :=
      meanDraws_total m ν icy (fun e he => h e (List.mem_cons_of_mem _ he))
    rw [List.length_cons]
    unfold meanDraws
    have e : ∀ x, meanDraws ν icy.length (fun l => a + total m (d :: icy) (x :: l)) =
        (a + (icy.map (fun d => ∫ v, m d v ∂ν)).sum) + m d x := by
      intro x
      have := ih (a + m d x)
      rw [show (fun l => a + total m (d :: icy) (x :: l)) =
        fun l => (a + m d x) + total m icy l from by funext l; simp [total, add_assoc], this]
      ring
    simp only [e]
    rw [integral_add (integrable_const _) (h d (by simp))]
    simp
    ring

/-- Which impactors are wet. -/
theorem meanDraws_icy (M : ℝ → ℝ) (p : ℝ) (h0 : 0 ≤ p) (h1 : p ≤ 1) :
    ∀ (craters : List ℝ) (a : ℝ),
      meanDraws unif craters.length (fun u => a + ((icyOf p craters u).map M).sum) =
        a + p * (craters.map M).sum
  | [], a => by simp [meanDraws, icyOf]
  | d :: craters, a => by
    have ih := meanDraws_icy M p h0 h1 craters
    rw [List.length_cons]
    unfold meanDraws
    have e : ∀ x, meanDraws unif craters.length
        (fun l => a + ((icyOf p (d :: craters) (x :: l)).map M).sum) =
        (a + p * (craters.map M).sum) +
          M d * (Set.Iio p).indicator (fun _ => (1 : ℝ)) x := by
      intro x
      by_cases hx : x < p
      · rw [show (fun l => a + ((icyOf p (d :: craters) (x :: l)).map M).sum) =
          fun l => (a + M d) + ((icyOf p craters l).map M).sum from by
            funext l; simp [icyOf, hx, add_assoc], ih, Set.indicator_of_mem (by exact hx)]
        ring
      · rw [show (fun l => a + ((icyOf p (d :: craters) (x :: l)).map M).sum) =
          fun l => a + ((icyOf p craters l).map M).sum from by
            funext l; simp [icyOf, hx], ih, Set.indicator_of_notMem (by exact hx)]
        ring
    simp only [e]
    have hi : Integrable (fun x => M d * (Set.Iio p).indicator (fun _ => (1 : ℝ)) x) unif :=
      ((integrable_const (1 : ℝ)).indicator measurableSet_Iio).const_mul _
    rw [integral_add (integrable_const _) hi, integral_const_mul, unif_Iio p h0 h1]
    simp
    ring

theorem sum_map_add (l : List (ℝ × ℝ)) (f g : ℝ × ℝ → ℝ) :
    (l.map (fun q => f q + g q)).sum = (l.map f).sum + (l.map g).sum := by
  induction l with
  | nil => simp
  | cons q l ih => simp only [List.map_cons, List.sum_cons, ih]; ring

theorem sum_map_mul_right' (l : List (ℝ × ℝ)) (f : ℝ × ℝ → ℝ) (a : ℝ) :
    (l.map (fun q => f q * a)).sum = (l.map f).sum * a := by
  induction l with
  | nil => simp
  | cons q l ih => simp only [List.map_cons, List.sum_cons, ih]; ring

/-- Diameters. -/
theorem meanPick_sum (ds ps : List ℝ) (hl : ps.length = ds.length) (h1 : ps.sum = 1) (M : ℝ → ℝ)
    (p : ℝ) : ∀ (n : ℕ) (a : ℝ),
      meanPick ds ps n (fun craters => a + p * (craters.map M).sum) =
        a + n * (p * ((ds.zip ps).map (fun q => q.2 * M q.1)).sum)
  | 0, a => by simp [meanPick]
  | n + 1, a => by
    have ih := meanPick_sum ds ps hl h1 M p n
    unfold meanPick
    have e : ∀ q : ℝ × ℝ, meanPick ds ps n (fun l => a + p * ((q.1 :: l).map M).sum) =
        (a + n * (p * ((ds.zip ps).map (fun q => q.2 * M q.1)).sum)) + p * M q.1 := by
      intro q
      rw [show (fun l => a + p * ((q.1 :: l).map M).sum) =
        fun l => (a + p * M q.1) + p * (l.map M).sum from by
          funext l; rw [List.map_cons, List.sum_cons]; ring, ih]
      ring
    simp only [e]
    have hp : ((ds.zip ps).map (fun q => q.2)).sum = 1 := by
      rw [List.map_snd_zip (by omega)]; exact h1
    rw [show (fun q : ℝ × ℝ => q.2 * (a + n * (p * ((ds.zip ps).map (fun q => q.2 * M q.1)).sum) +
        p * M q.1)) = fun q => q.2 * (a + n * (p * ((ds.zip ps).map (fun q => q.2 * M q.1)).sum)) +
          (q.2 * M q.1) * p from by funext q; ring, sum_map_add, sum_map_mul_right',
      sum_map_mul_right', hp]
    push_cast
    ring

theorem meanPick_congr (ds ps : List ℝ) : ∀ (n : ℕ) (f f' : List ℝ → ℝ),
    (∀ l, l.length = n → (∀ d ∈ l, d ∈ ds) → f l = f' l) → meanPick ds ps n f = meanPick ds ps n f'
  | 0, f, f', h => h [] rfl (by simp)
  | n + 1, f, f', h => by
    unfold meanPick
    congr 1
    apply List.map_congr_left
    intro q hq
    rw [meanPick_congr ds ps n _ (fun l => f' (q.1 :: l))]
    intro l hl hm
    refine h _ (by simp [hl]) ?_
    intro d hd
    rcases List.mem_cons.1 hd with rfl | hd
    · exact (List.of_mem_zip hq).1
    · exact hm d hd

theorem icyOf_mem (p : ℝ) (craters u : List ℝ) : ∀ d ∈ icyOf p craters u, d ∈ craters := by
  intro d hd
  unfold icyOf at hd
  obtain ⟨q, hq, rfl⟩ := List.mem_map.1 hd
  exact (List.of_mem_zip (List.mem_filter.1 hq).1).1

/-- The mean of a step, for any mass and any law of speeds. -/
theorem meanShower_eq (m : ℝ → ℝ → ℝ) (ν : Measure ℝ) [IsProbabilityMeasure ν] (ds ps : List ℝ)
    (hl : ps.length = ds.length) (hsum : ps.sum = 1) (p x : ℝ) (h0 : 0 ≤ p) (h1 : p ≤ 1) (hx : 0 ≤ x)
    (hint : ∀ d ∈ ds, Integrable (m d) ν) :
    meanShower m ν ds ps p x = x * p * meanMass m ν ds ps := by
  unfold meanShower
  have e : ∀ n : ℕ, meanPick ds ps n (fun craters =>
      meanDraws (volume.restrict (Set.Ico 0 1)) craters.length (fun u =>
        meanDraws ν (icyOf p craters u).length (fun vs => total m (icyOf p craters u) vs))) =
      n * (p * meanMass m ν ds ps) := by
    intro n
    rw [meanPick_congr ds ps n _ (fun craters => 0 + p * (craters.map (fun d => ∫ v, m d v ∂ν)).sum),
      meanPick_sum ds ps hl hsum]
    · simp [meanMass]
    · intro craters _ hm
      rw [← meanDraws_icy _ p h0 h1 craters 0]
      change meanDraws unif _ _ = _
      congr 1
      funext u
      rw [← meanDraws_total m ν (icyOf p craters u)
        (fun d hd => hint d (hm d (icyOf_mem p craters u d hd))) 0]
      simp
  simp only [e]
  have hnn : Set.EqOn (fun r => ((⌊x + r⌋.toNat : ℕ) : ℝ) * (p * meanMass m ν ds ps))
      (fun r => (probRound x r : ℝ) * (p * meanMass m ν ds ps)) (Set.uIcc 0 1) := by
    intro u hu
    rw [Set.uIcc_of_le zero_le_one] at hu
    have h2 : ((⌊x + u⌋.toNat : ℕ) : ℤ) = ⌊x + u⌋ :=
      Int.toNat_of_nonneg (Int.floor_nonneg.2 (by linarith [hu.1]))
    have h3 : ((⌊x + u⌋.toNat : ℕ) : ℝ) = (⌊x + u⌋ : ℝ) := by exact_mod_cast congrArg (Int.cast : ℤ → ℝ) h2
    unfold probRound
    simp only [h3]
  rw [intervalIntegral.integral_congr hnn, intervalIntegral.integral_mul_const, C26_unbiased]
  ring

/-! ## The ice of one impactor -/

/-- The ice of one wet impactor, solved for the length. -/
noncomputable def massOf (c : RunCfg) (k : Kind) (regime : String) (D v : ℝ) : ℝ :=
  sphere (if regime = "d" then
      diam2lenCollins (final2transient c.simple2complex c.complex2peakring D) v (density c k)
        c.target_density c.grav_moon c.impact_angle
    else diam2lenJohnson (final2transient c.simple2complex c.complex2peakring D) v (density c k)
        c.target_density c.grav_moon c.impact_angle c.simple2complex) *
    density c k * water c k * kept c.mode k v

theorem density_pos {c : RunCfg} (h : PhysicalCfg c) (k : Kind) : 0 < density c k := by
  cases k
  · exact h.rho
  · exact h.crho

theorem water_nonneg {c : RunCfg} (h : PhysicalCfg c) (k : Kind) : 0 ≤ water c k := by
  cases k
  · exact h.hw
  · exact h.chw

/-- There is only one mass that a crater and a speed allow. -/
theorem iceOf_eq {c : RunCfg} (h : PhysicalCfg c) (k : Kind) (regime : String) (D v m : ℝ) (hv : 0 < v)
    (hm : IceOf c k regime D v m) : m = massOf c k regime D v := by
  obtain ⟨L, ⟨hL, hx⟩, rfl⟩ := hm
  have hrho := density_pos h k
  unfold massOf
  rcases hx with ⟨rfl, hx⟩ | ⟨hr, hx⟩
  · rw [if_pos rfl, ← hx, C39_collins_unique L v _ _ _ _ hL hv hrho h.trho h.grav h.angle.1 h.angle.2]
  · rw [if_neg (by rcases hr with rfl | rfl <;> decide), ← hx,
      C39_johnson_unique L v _ _ _ _ _ hL hv hrho h.trho h.grav h.s2c.1 h.angle.1 h.angle.2]

theorem kept_bound (mode : String) (k : Kind) (v : ℝ) (hv : 0 < v) :
    0 ≤ kept mode k v ∧ kept mode k v ≤ 16600 := by
  unfold kept
  split
  · cases k <;> norm_num
  · next h =>
    rw [not_lt] at h
    split
    · have h1 : exp (-(0.3464 * (v / 1000))) ≤ 1 := by
        rw [exp_le_one_iff]
        have : 0 ≤ v / 1000 := by positivity
        linarith
      have h2 := exp_pos (-(0.3464 * (v / 1000)))
      constructor
      · positivity
      · linarith
    · split
      · refine ⟨by positivity, div_le_self (by norm_num) ?_⟩
        apply Real.one_le_rpow <;> linarith
      · norm_num

theorem massOf_measurable (c : RunCfg) (k : Kind) (regime : String) (D : ℝ) :
    Measurable (massOf c k regime D) := by
  have hk : Measurable (kept c.mode k) := by
    unfold kept
    apply Measurable.ite (measurableSet_lt measurable_id measurable_const) measurable_const
    split
    · fun_prop
    · split
      · fun_prop
      · fun_prop
  unfold massOf sphere
  split
  · unfold diam2lenCollins
    fun_prop
  · unfold diam2lenJohnson
    fun_prop

theorem sphere_mono {a b : ℝ} (ha : 0 ≤ a) (h : a ≤ b) : sphere a ≤ sphere b := by
  unfold sphere
  have := pi_pos
  gcongr

/-- The mass is positive where water is kept, and bounded for speeds away from zero. -/
theorem massOf_bound {c : RunCfg} (h : PhysicalCfg c) (k : Kind) (regime : String) (D v0 : ℝ)
    (hD : 0 < D) (hv0 : 0 < v0) : ∃ B, ∀ v, v0 ≤ v → 0 ≤ massOf c k regime D v ∧
      massOf c k regime D v ≤ B ∧ (0 < water c k → 0 < massOf c k regime D v) := by
  have ht : 0 < final2transient c.simple2complex c.complex2peakring D := final2transient_pos hD
  have hrho := density_pos h k
  have hw := water_nonneg h k
  obtain ⟨L, hL⟩ : ∃ L : ℝ → ℝ, L = fun v => if regime = "d" then
      diam2lenCollins (final2transient c.simple2complex c.complex2peakring D) v (density c k)
        c.target_density c.grav_moon c.impact_angle
    else diam2lenJohnson (final2transient c.simple2complex c.complex2peakring D) v (density c k)
        c.target_density c.grav_moon c.impact_angle c.simple2complex := ⟨_, rfl⟩
  have hm : ∀ v, massOf c k regime D v = sphere (L v) * density c k * water c k * kept c.mode k v := by
    intro v; rw [hL]; rfl
  have hpos : ∀ v, 0 < v → 0 < L v := by
    intro v hv
    rw [hL]
    simp only []
    split
    · exact (C39_collins_inverse _ v _ _ _ _ ht hv hrho h.trho h.grav h.angle.1 h.angle.2).1
    · exact (C39_johnson_inverse _ v _ _ _ _ _ ht hv hrho h.trho h.grav h.s2c.1 h.angle.1 h.angle.2).1
  have hle : ∀ v, v0 ≤ v → L v ≤ L v0 := by
    intro v hv
    rcases hv.eq_or_lt with rfl | hv
    · exact le_rfl
    rw [hL]
    simp only []
    split
    · exact ((C39_collins_mono _ 0 v0 v _ _ _ _ ht hv0 hrho h.trho h.grav h.angle.1 h.angle.2).2 hv).le
    · exact ((C39_johnson_mono _ 0 v0 v _ _ _ _ _ ht hv0 hrho h.trho h.grav h.s2c.1 h.angle.1
        h.angle.2).2 hv).le
  refine ⟨sphere (L v0) * density c k * water c k * 16600, fun v hv => ?_⟩
  have hvp := hv0.trans_le hv
  have hk := kept_bound c.mode k v hvp
  have hs := sphere_mono (hpos v hvp).le (hle v hv)
  have hsp : 0 < sphere (L v) := by
    have := pi_pos
    have := hpos v hvp
    unfold sphere; positivity
  have hkp : 0 < kept c.mode k v := by
    unfold kept
    split
    · cases k <;> norm_num
    · split
      · positivity
      · split
        · positivity
        · norm_num
  rw [hm]
  refine ⟨by have := hk.1; positivity, ?_, fun hw => by positivity⟩
  have h0 : 0 ≤ sphere (L v) * density c k * water c k := by positivity
  have h1 : sphere (L v) * density c k * water c k ≤ sphere (L v0) * density c k * water c k := by
    gcongr
  nlinarith [hk.1, hk.2]

theorem mass_integrable {c : RunCfg} (h : PhysicalCfg c) (k : Kind) (regime : String) (m : ℝ → ℝ → ℝ)
    (ν : Measure ℝ) [IsProbabilityMeasure ν] (D v0 : ℝ) (hD : 0 < D) (hv0 : 0 < v0)
    (hν : ∀ᵐ v ∂ν, v0 ≤ v) (hm : ∀ v, 0 < v → IceOf c k regime D v (m D v)) :
    Integrable (m D) ν ∧ (0 < water c k → 0 < ∫ v, m D v ∂ν) := by
  obtain ⟨B, hB⟩ := massOf_bound h k regime D v0 hD hv0
  have he : massOf c k regime D =ᵐ[ν] m D := by
    filter_upwards [hν] with v hv
    exact (iceOf_eq h k regime D v _ (hv0.trans_le hv) (hm v (hv0.trans_le hv))).symm
  have hi : Integrable (massOf c k regime D) ν := by
    apply Integrable.of_bound (massOf_measurable c k regime D).aestronglyMeasurable (C := B)
    filter_upwards [hν] with v hv
    rw [norm_eq_abs, abs_of_nonneg (hB v hv).1]
    exact (hB v hv).2.1
  refine ⟨hi.congr he, fun hw => ?_⟩
  rw [← integral_congr_ae he, integral_pos_iff_support_of_nonneg_ae
    (by filter_upwards [hν] with v hv; exact (hB v hv).1) hi]
  have : Function.support (massOf c k regime D) =ᵐ[ν] Set.univ := by
    filter_upwards [hν] with v hv
    exact eq_true (((hB v hv).2.2 hw).ne')
  rw [measure_congr this]
  simp

/-! ## The configuration -/

theorem Spec.Sizes.sum_one {lo hi step slope : ℝ} {ds ps : List ℝ} (h : Sizes lo hi step slope ds ps)
    (hpos : ∀ d ∈ ds, 0 < d) : ps.sum = 1 := by
  obtain ⟨S, hS⟩ : ∃ S, S = (ds.map (fun x => x ^ slope)).sum := ⟨_, rfl⟩
  have hne : ds ≠ [] := by
    intro e
    have := h.count
    rw [e] at this
    simp at this
  have hSp : 0 < S := by
    rw [hS]
    apply List.sum_pos
    · intro x hx
      obtain ⟨d, hd, rfl⟩ := List.mem_map.1 hx
      exact rpow_pos_of_pos (hpos d hd) _
    · simpa using hne
  have e : ps.map (fun p => p * S) = ds.map (fun x => x ^ slope) := by
    apply List.ext_getElem (by simp [h.length])
    intro i h1 h2
    simp only [List.length_map] at h1 h2
    simp only [List.getElem_map]
    have := h.prob i _ _ (List.getElem?_eq_getElem h2) (List.getElem?_eq_getElem h1)
    rwa [← hS] at this
  have : ps.sum * S = S := by
    have := List.sum_map_mul_right (l := ps) (f := id) (r := S)
    rw [List.map_id] at this
    rw [← this]
    exact (congrArg List.sum e).trans hS.symm
  exact mul_right_cancel₀ hSp.ne' (this.trans (one_mul S).symm)

theorem Spec.Sizes.prob_pos {lo hi step slope : ℝ} {ds ps : List ℝ} (h : Sizes lo hi step slope ds ps)
    (hpos : ∀ d ∈ ds, 0 < d) : ∀ p ∈ ps, 0 < p := by
  intro p hp
  obtain ⟨i, hi⟩ := List.mem_iff_getElem?.1 hp
  have hil : i < ds.length := by rw [← h.length]; exact (List.getElem?_eq_some_iff.1 hi).1
  have e := h.prob i _ p (List.getElem?_eq_getElem hil) hi
  have h1 : 0 < ds[i] ^ slope := rpow_pos_of_pos (hpos _ (List.getElem_mem hil)) _
  have h2 : 0 ≤ (ds.map (fun x => x ^ slope)).sum := by
    apply List.sum_nonneg
    intro x hx
    obtain ⟨d, hd, rfl⟩ := List.mem_map.1 hx
    exact (rpow_pos_of_pos (hpos d hd) _).le
  rw [← e] at h1
  exact pos_of_mul_pos_left h1 h2

theorem regime_ok {c : RunCfg} (h : PhysicalCfg c) {regime : String} (hr : regime = "d" ∨ regime = "e") :
    RegimeOK (c.impact_regimes.get regime) (fun lo hi => neukum c.flux hi ≤ neukum c.flux lo) := by
  rcases hr with rfl | rfl
  · exact h.regD
  · exact h.regE

theorem Spec.Sizes.pos {lo hi step slope : ℝ} {ds ps : List ℝ} (h : Sizes lo hi step slope ds ps)
    (h0 : 0 < lo) (h1 : lo ≤ hi) : ∀ d ∈ ds, 0 < d := by
  intro d hd
  obtain ⟨i, hi'⟩ := List.mem_iff_getElem?.1 hd
  rw [h.even i d hi']
  have : 0 ≤ (hi - lo) / (⌊(hi - lo) / step⌋₊ : ℝ) := div_nonneg (by linarith) (Nat.cast_nonneg _)
  positivity

theorem expected_nonneg {c : RunCfg} (h : PhysicalCfg c) (hc : c.is_comet = false) (k : Kind)
    {regime : String} (hr : regime = "d" ∨ regime = "e") {lo hi step slope : ℝ}
    (hreg : c.impact_regimes.get regime = .ok (lo, hi, step, slope)) (t : ℝ) :
    0 ≤ expected c k lo hi t := by
  obtain ⟨lo', hi', step', slope', e, h0, hs, h1, -⟩ := regime_ok h hr
  rw [hreg, Except.ok.injEq, Prod.mk.injEq, Prod.mk.injEq, Prod.mk.injEq] at e
  obtain ⟨rfl, rfl, rfl, rfl⟩ := e
  obtain ⟨ds, ns, ps, k1, -, k2, -⟩ := craterPop_ok (physical_kind h k) [t] regime
    (regime_ok (physical_kind h k) hr)
  have := (craterPop_spec hc k [t] regime lo hi step slope hreg h0 hs h1 ds ns ps k1).2.2.1
  apply k2
  rw [this]
  simp

theorem chance_nonneg {c : RunCfg} (h : PhysicalCfg c) (k : Kind) : 0 ≤ share c k ∧ 0 ≤ wet c k := by
  cases k
  · unfold share wet
    refine ⟨?_, mul_nonneg h.cf h.ch⟩
    simp only []
    split
    · linarith [h.caf1]
    · norm_num
  · exact ⟨h.caf, zero_le_one⟩

theorem steps_get {α β : Type} {step : α → σ → β → σ → Prop} {as : List α} {s s' : σ} {bs : List β}
    (h : Steps step as s bs s') : bs.length = as.length ∧
      ∀ (i : Nat) a b, as[i]? = some a → bs[i]? = some b → ∃ s1 s2, step a s1 b s2 := by
  induction h with
  | nil s => exact ⟨rfl, fun i a b h => by simp at h⟩
  | cons h1 h2 ih =>
    refine ⟨by simp [ih.1], ?_⟩
    intro i a b ha hb
    cases i with
    | zero =>
      simp only [List.getElem?_cons_zero, Option.some.injEq] at ha hb
      subst ha; subst hb
      exact ⟨_, _, h1⟩
    | succ i => exact ih.2 i a b (by simpa using ha) (by simpa using hb)

theorem masses_total {c : RunCfg} (h : PhysicalCfg c) (k : Kind) (regime : String)
    (m : ℝ → ℝ → ℝ) (hm : ∀ D v, 0 < D → 0 < v → IceOf c k regime D v (m D v)) :
    ∀ (icy vs ms : List ℝ), (∀ d ∈ icy, 0 < d) → (∀ v ∈ vs, 0 < v) →
      List.Forall₂ (fun p x => IceOf c k regime p.1 p.2 x) (icy.zip vs) ms →
      ms.sum = total m icy vs
  | [], vs, ms, _, _, hf => by
    rw [List.zip_nil_left] at hf
    cases hf
    simp [total]
  | d :: icy, [], ms, _, _, hf => by
    rw [List.zip_nil_right] at hf
    cases hf
    simp [total]
  | d :: icy, v :: vs, ms, hd, hv, hf => by
    rw [List.zip_cons_cons] at hf
    cases hf with
    | cons h1 h2 =>
      have hv0 := hv v (by simp)
      have ih := masses_total h k regime m hm icy vs _ (fun e he => hd e (List.mem_cons_of_mem _ he))
        (fun e he => hv e (List.mem_cons_of_mem _ he)) h2
      rw [List.sum_cons, ih, iceOf_eq h k regime d v _ hv0 h1,
        ← iceOf_eq h k regime d v _ hv0 (hm d v (hd d (by simp)) hv0)]
      simp [total]

/-- The loop over the crater counts, one step at a time. -/
theorem stochLoop_total (g : Gen σ) (hg : LawfulGen g) {c : RunCfg} (h : PhysicalCfg c)
    (hc : c.is_comet = false) (k : Kind) (regime : String) (hr : regime = "d" ∨ regime = "e")
    (ds ps : List ℝ) (hds : ∀ d ∈ ds, 0 < d)
    (m : ℝ → ℝ → ℝ) (hm : ∀ D v, 0 < D → 0 < v → IceOf c k regime D v (m D v)) :
    ∀ (ns : List Int) (s s' : σ) (out : List ℝ),
      stochLoop g (cfgOf c k) regime ds ps ns s = .ok (out, s') →
      Steps (fun (n : Int) s2 x s5 => ∃ craters s3 w s4 vs, g.choice ds n.toNat ps s2 = (craters, s3) ∧
        g.random craters.length s3 = (w, s4) ∧
        Speeds g c k (icyOf (share c k * wet c k) craters w).length s4 vs s5 ∧
        x = total m (icyOf (share c k * wet c k) craters w) vs) ns s out s'
  | [], s, s', out, ho => by
    unfold stochLoop at ho
    cases ho
    exact .nil _
  | n :: ns, s, s', out, ho => by
    unfold stochLoop at ho
    obtain ⟨rd, h1, ho⟩ := bind_ok_inv ho
    obtain ⟨v, h2, ho⟩ := bind_ok_inv ho
    obtain ⟨x, h3, ho⟩ := bind_ok_inv ho
    obtain ⟨rest, h4, ho⟩ := bind_ok_inv ho
    injection ho with ho
    rw [Prod.mk.injEq] at ho
    obtain ⟨rfl, rfl⟩ := ho
    refine .cons ?_ (stochLoop_total g hg h hc k regime hr ds ps hds m hm ns v.2 rest.2 rest.1 h4)
    unfold choiceOf at h1
    split at h1
    case isFalse => cases h1
    next hn =>
    injection h1 with h1
    have emask := maskSelect_eq (hydProbCraters (cfgOf c k).imp) rd.1 (g.random rd.1.length rd.2).1
    change maskSelect rd.1 (hydratedCraters (cfgOf c k).imp (g.random rd.1.length rd.2).1) =
      icyOf _ rd.1 (g.random rd.1.length rd.2).1 at emask
    rw [hydProb_eq c hc k] at emask
    have hmem : ∀ d ∈ maskSelect rd.1 (hydratedCraters (cfgOf c k).imp (g.random rd.1.length rd.2).1),
        0 < d := by
      intro d hd
      have := maskSelect_mem _ _ _ hd
      rw [← h1] at this
      exact hds _ (hg.choice_mem _ _ _ _ hn.1 _ this)
    obtain ⟨hs, hl, hpos⟩ := impactorSpeeds_spec g hg h hc k _ _ v.2 v.1 h2
    unfold largeCratersIce at h3
    rw [if_pos hl.symm] at h3
    obtain ⟨ms, h5, h3⟩ := bind_ok_inv h3
    injection h3 with h3
    have hf := largeMasses_spec h hc k regime (by tauto) _ _ (fun p hp =>
      ⟨hmem _ (List.of_mem_zip hp).1, hpos _ (List.of_mem_zip hp).2⟩) h5
    have ht := masses_total h k regime m hm _ _ _ hmem hpos hf
    rw [emask] at hs ht
    exact ⟨rd.1, rd.2, _, _, v.1, h1, rfl, hs, h3.symm.trans ht⟩

/-- **C136** what `get_ice_stochastic` returns for a timestep is the quantity whose mean `meanShower`
takes: a function of the rounded number of craters, their diameters, the draws that decide which are
wet, and the speeds, each of which is what the generator returns. -/
theorem C136_drawn (g : Gen σ) (hg : LawfulGen g) {c : RunCfg} (h : PhysicalCfg c)
    (hc : c.is_comet = false) (k : Kind) (regime : String) (hr : regime = "d" ∨ regime = "e")
    (m : ℝ → ℝ → ℝ) (hm : ∀ D v, 0 < D → 0 < v → IceOf c k regime D v (m D v))
    (time : List ℝ) (s s' : σ) (out : List ℝ)
    (ho : iceStochastic g (cfgOf c k) time regime s = .ok (out, s')) :
    ∃ lo hi step slope ds ps u s1, c.impact_regimes.get regime = .ok (lo, hi, step, slope) ∧
      Sizes lo hi step slope ds ps ∧ g.random time.length s = (u, s1) ∧ out.length = time.length ∧
      ∀ (i : Nat) t x, time[i]? = some t → out[i]? = some x → ∃ r craters w vs s2 s3 s4 s5,
        u[i]? = some r ∧ g.choice ds ⌊expected c k lo hi t + r⌋.toNat ps s2 = (craters, s3) ∧
        g.random craters.length s3 = (w, s4) ∧
        Speeds g c k (icyOf (share c k * wet c k) craters w).length s4 vs s5 ∧
        x = total m (icyOf (share c k * wet c k) craters w) vs := by
  obtain ⟨lo, hi, step, slope, e, h0, hs0, h1, -⟩ := regime_ok h hr
  unfold iceStochastic at ho
  obtain ⟨⟨ds, ns, ps⟩, h2, ho⟩ := bind_ok_inv ho
  obtain ⟨k1, k2, k3, -⟩ := craterPop_spec hc k time regime lo hi step slope e h0 hs0 h1 ds ns ps h2
  have hlen : ns.length = time.length := by rw [k3, List.length_map]
  obtain ⟨⟨u, s1⟩, hu⟩ : ∃ q, g.random time.length s = q := ⟨_, rfl⟩
  have hul : u.length = time.length := by
    have := hg.random_length time.length s
    rwa [hu] at this
  simp only [hlen, hu] at ho
  obtain ⟨hl, hstep⟩ := steps_get (stochLoop_total g hg h hc k regime hr ds ps k2 m hm _ s1 s' out ho)
  refine ⟨lo, hi, step, slope, ds, ps, u, s1, e, k1, hu, by rw [hl]; simp [hul, hlen], ?_⟩
  intro i t x ht hx
  have hi' : i < u.length := by rw [hul]; exact (List.getElem?_eq_some_iff.1 ht).1
  have hui := List.getElem?_eq_getElem hi'
  obtain ⟨s2, s5, craters, s3, w, s4, vs, j1, j2, j3, j4⟩ :=
    hstep i ⌊expected c k lo hi t + u[i]⌋ x
      (by rw [List.getElem?_zipWith, k3, List.getElem?_map, ht, hui]; rfl) hx
  exact ⟨u[i], craters, w, vs, s2, s3, s4, s5, hui, j1, j2, j3, j4⟩

/-- **C136** the mean ice of a timestep is the expected number of craters of the kind times the chance
that an impactor is wet times the mean ice of one wet impactor. -/
theorem C136_mean {c : RunCfg} (h : PhysicalCfg c) (hc : c.is_comet = false) (k : Kind)
    (hwet : share c k * wet c k ≤ 1) (regime : String) (hr : regime = "d" ∨ regime = "e")
    (m : ℝ → ℝ → ℝ) (hm : ∀ D v, 0 < D → 0 < v → IceOf c k regime D v (m D v))
    (ν : Measure ℝ) [IsProbabilityMeasure ν] (v0 : ℝ) (hv0 : 0 < v0) (hν : ∀ᵐ v ∂ν, v0 ≤ v)
    (lo hi step slope : ℝ) (ds ps : List ℝ)
    (hreg : c.impact_regimes.get regime = .ok (lo, hi, step, slope))
    (hs : Sizes lo hi step slope ds ps) (t : ℝ) :
    meanShower m ν ds ps (share c k * wet c k) (expected c k lo hi t) =
      expected c k lo hi t * (share c k * wet c k) * meanMass m ν ds ps ∧
    (0 < water c k → 0 < meanMass m ν ds ps) := by
  obtain ⟨lo', hi', step', slope', e', h0, hs0, h1, -⟩ := regime_ok h hr
  rw [hreg, Except.ok.injEq, Prod.mk.injEq, Prod.mk.injEq, Prod.mk.injEq] at e'
  obtain ⟨rfl, rfl, rfl, rfl⟩ := e'
  have hpos := hs.pos h0 (by linarith)
  have hsum := hs.sum_one hpos
  have hp := chance_nonneg h k
  refine ⟨meanShower_eq m ν ds ps hs.length hsum _ _ (mul_nonneg hp.1 hp.2) hwet
    (expected_nonneg h hc k hr hreg t) (fun d hd => (mass_integrable h k regime m ν d v0 (hpos d hd) hv0
      hν (fun v hv => hm d v (hpos d hd) hv)).1), fun hw => ?_⟩
  unfold meanMass
  apply List.sum_pos
  · intro x hx
    obtain ⟨q, hq, rfl⟩ := List.mem_map.1 hx
    have hq' := List.of_mem_zip hq
    refine mul_pos ?_ ((mass_integrable h k regime m ν q.1 v0 (hpos _ hq'.1) hv0
      hν (fun v hv => hm q.1 v (hpos _ hq'.1) hv)).2 hw)
    exact hs.prob_pos hpos _ hq'.2
  · intro e
    have h2 := congrArg List.length e
    have h3 := hs.count
    have h4 := hs.length
    simp only [List.length_map, List.length_zip, List.length_nil] at h2
    omega

/-- **C136 (refuted)** the mean is not the expected number of craters of the kind times the fraction of
the kind that is wet times the mean ice of one: the share of the kind enters a second time, so that of
comets the share of comets and of asteroids the share of asteroids is delivered. -/
theorem C136_share_refuted {c : RunCfg} (h : PhysicalCfg c) (hc : c.is_comet = false)
    (hcom : c.impact_ice_comets = true) (h0 : 0 < c.comet_ast_frac) (h1 : c.comet_ast_frac < 1) (k : Kind)
    (hwet : share c k * wet c k ≤ 1) (hw0 : 0 < wet c k) (hwat : 0 < water c k) (regime : String)
    (hr : regime = "d" ∨ regime = "e")
    (m : ℝ → ℝ → ℝ) (hm : ∀ D v, 0 < D → 0 < v → IceOf c k regime D v (m D v))
    (ν : Measure ℝ) [IsProbabilityMeasure ν] (v0 : ℝ) (hv0 : 0 < v0) (hν : ∀ᵐ v ∂ν, v0 ≤ v)
    (lo hi step slope : ℝ) (ds ps : List ℝ)
    (hreg : c.impact_regimes.get regime = .ok (lo, hi, step, slope))
    (hs : Sizes lo hi step slope ds ps) (t : ℝ) (hx : 0 < expected c k lo hi t) :
    meanShower m ν ds ps (share c k * wet c k) (expected c k lo hi t) =
      share c k * (expected c k lo hi t * wet c k * meanMass m ν ds ps) ∧
    meanShower m ν ds ps (share c k * wet c k) (expected c k lo hi t) <
      expected c k lo hi t * wet c k * meanMass m ν ds ps := by
  obtain ⟨e, hp⟩ := C136_mean h hc k hwet regime hr m hm ν v0 hv0 hν lo hi step slope ds ps hreg hs t
  have hmm := hp hwat
  have hsh : share c k < 1 := by
    cases k
    · unfold share; simp only [hcom, if_true]; linarith
    · exact h1
  rw [e]
  refine ⟨by ring, ?_⟩
  have : 0 < expected c k lo hi t * wet c k * meanMass m ν ds ps := by positivity
  nlinarith

/-! ## The laws of the speeds -/

/-- `f` is the density of the speeds of the kind (C107). -/
def SpeedDensity (c : RunCfg) (k : Kind) (f : ℝ → ℝ) : Prop :=
  match k with
  | .asteroid => f = (asteroidRv c.speed).pdf
  | .comet => ∃ m, cometRv c.speed c.jfc_frac c.lpc_frac = .ok m ∧ f = m.pdf

theorem lawOf_prob (f : ℝ → ℝ) (h0 : ∀ x, 0 ≤ f x) (hi : Integrable f) (h1 : ∫ x, f x = 1) :
    IsProbabilityMeasure (lawOf f) := by
  constructor
  unfold lawOf
  rw [withDensity_apply _ MeasurableSet.univ, Measure.restrict_univ,
    ← ofReal_integral_eq_lintegral_ofReal hi (Filter.Eventually.of_forall h0), h1]
  simp

theorem lawOf_above (f : ℝ → ℝ) (hi : Integrable f) (v0 : ℝ) (h : ∀ x, x < v0 → f x = 0) :
    ∀ᵐ v ∂lawOf f, v0 ≤ v := by
  unfold lawOf
  rw [ae_withDensity_iff' hi.aemeasurable.ennreal_ofReal]
  refine Filter.Eventually.of_forall (fun x hx => ?_)
  by_contra hlt
  rw [not_le] at hlt
  exact hx (by simp [h x hlt])

/-- **C136** both laws of speeds meet the hypotheses: they are distributions on speeds above a positive
one. -/
theorem C136_laws {c : RunCfg} (h : PhysicalCfg c) (k : Kind) : ∃ f, SpeedDensity c k f ∧
    IsProbabilityMeasure (lawOf f) ∧ ∃ v0, 0 < v0 ∧ ∀ᵐ v ∂lawOf f, v0 ≤ v := by
  cases k with
  | asteroid =>
    have hd := (C107_asteroid c.speed h.sd).1
    refine ⟨_, rfl, lawOf_prob _ hd.nonneg hd.integrable hd.total, c.escape_vel, h.esc, ?_⟩
    apply lawOf_above _ hd.integrable
    intro x hx
    unfold asteroidRv truncnormRv
    simp only []
    rw [if_neg]
    rintro ⟨h1, -⟩
    rw [div_le_div_iff_of_pos_right (by exact h.sd)] at h1
    have : c.escape_vel - c.impact_speed_mean ≤ x - c.impact_speed_mean := h1
    linarith
  | comet =>
    obtain ⟨m, hm, hd⟩ := C107_comet c.speed c.jfc_frac c.lpc_frac h.jfrac h.lfrac h.fracs h.jsd h.lsd
      h.crange
    refine ⟨m.pdf, ⟨m, hm, rfl⟩, lawOf_prob _ hd.nonneg hd.integrable hd.total,
      min (c.jfc_speed_mean - c.comet_speed_min) (c.lpc_speed_mean - c.comet_speed_min),
      lt_min (by linarith [h.jmin]) (by linarith [h.lmin]), ?_⟩
    apply lawOf_above _ hd.integrable
    intro x hx
    have hz : ∀ mean sd (b : Option ℝ), 0 < sd → x < mean - c.comet_speed_min →
        (truncnormRv (-c.comet_speed_min / sd) b mean sd).pdf x = 0 := by
      intro mean sd b hsd hx
      unfold truncnormRv
      simp only []
      rw [if_neg]
      rintro ⟨h1, -⟩
      rw [div_le_div_iff_of_pos_right hsd] at h1
      linarith
    obtain ⟨m', hm', e1, e2, e3, e4⟩ := (C31_weights [truncnormRv (-c.speed.cometMin / c.speed.jfcSd)
      (some (c.speed.cometMax / c.speed.jfcSd)) c.speed.jfcMean c.speed.jfcSd,
      truncnormRv (-c.speed.cometMin / c.speed.lpcSd)
      (some (c.speed.cometMax / c.speed.lpcSd)) c.speed.lpcMean c.speed.lpcSd] [c.jfc_frac, c.lpc_frac]).2 rfl
        (by simpa using h.fracs)
    have : m = m' := by
      have := hm.symm.trans hm'
      injection this
    subst this
    unfold Mixture.pdf
    rw [e1]
    have z1 := hz c.speed.jfcMean c.speed.jfcSd (some (c.speed.cometMax / c.speed.jfcSd)) h.jsd
      (hx.trans_le (min_le_left _ _))
    have z2 := hz c.speed.lpcMean c.speed.lpcSd (some (c.speed.cometMax / c.speed.lpcSd)) h.lsd
      (hx.trans_le (min_le_right _ _))
    have z3 : ∀ ws : List ℝ, weightedSum ws [0, 0] = 0 := by
      intro ws
      unfold weightedSum
      match ws with
      | [] => simp
      | [a] => simp
      | a :: b :: _ => simp
    simp only [List.map_cons, List.map_nil]
    rw [show (truncnormRv (-c.speed.cometMin / c.speed.jfcSd) (some (c.speed.cometMax / c.speed.jfcSd))
      c.speed.jfcMean c.speed.jfcSd).pdf x = 0 from z1,
      show (truncnormRv (-c.speed.cometMin / c.speed.lpcSd) (some (c.speed.cometMax / c.speed.lpcSd))
      c.speed.lpcMean c.speed.lpcSd).pdf x = 0 from z2]
    exact z3 _


/-! ## The default configuration -/

theorem default_regimes (seed : Int) (regime : String) (hr : regime = "d" ∨ regime = "e") :
    ∃ lo hi step slope, (RunCfg.default seed).impact_regimes.get regime = .ok (lo, hi, step, slope) ∧
      10 ≤ lo ∧ lo < hi ∧ hi ≤ 300000 := by
  rcases hr with rfl | rfl
  · exact ⟨1.5e3, 15e3, 1e2, -1.8, rfl, by norm_num, by norm_num, by norm_num⟩
  · exact ⟨15e3, 300e3, 1e3, -1.8, rfl, by norm_num, by norm_num, by norm_num⟩

theorem default_expected_pos (seed : Int) (k : Kind) (lo hi t : ℝ) (h1 : 10 ≤ lo) (h2 : lo < hi)
    (h3 : hi ≤ 300000) : 0 < expected (RunCfg.default seed) k lo hi t := by
  have hn := C42_neukum_decreasing (RunCfg.default seed).flux rfl rfl lo hi h1 h2 h3
  rw [neukum_eq, neukum_eq] at hn
  have hd : 0 < production (RunCfg.default seed) lo - production (RunCfg.default seed) hi := by linarith
  have hs : 0 < share (RunCfg.default seed) k := by
    cases k <;> simp [share, RunCfg.default] <;> norm_num
  have ha : 0 < (RunCfg.default seed).sa_moon := by
    have := pi_pos
    simp only [RunCfg.default]; positivity
  have ht : 0 < (RunCfg.default seed).timestep := (default_physical seed).ts
  have hf : 0 < fluxRatio t := by unfold fluxRatio; positivity
  unfold expected
  positivity

/-- **C136 (refuted)** with the default configuration, of the ice of comets that are drawn 5 % and of the
ice of asteroids 95 % is delivered in the mean, in every regime, timestep and run. -/
theorem C136_shipped_refuted (seed : Int) (k : Kind) (regime : String)
    (hr : regime = "d" ∨ regime = "e") (m : ℝ → ℝ → ℝ)
    (hm : ∀ D v, 0 < D → 0 < v → IceOf (RunCfg.default seed) k regime D v (m D v)) :
    ∃ f, SpeedDensity (RunCfg.default seed) k f ∧ ∃ lo hi step slope,
      (RunCfg.default seed).impact_regimes.get regime = .ok (lo, hi, step, slope) ∧
      ∀ ds ps t, Sizes lo hi step slope ds ps →
        0 < expected (RunCfg.default seed) k lo hi t * wet (RunCfg.default seed) k *
          meanMass m (lawOf f) ds ps ∧ ∃ part : ℝ, (k = .comet → part = 5 / 100) ∧
        (k = .asteroid → part = 95 / 100) ∧
        meanShower m (lawOf f) ds ps (share (RunCfg.default seed) k * wet (RunCfg.default seed) k)
            (expected (RunCfg.default seed) k lo hi t) =
          part * (expected (RunCfg.default seed) k lo hi t * wet (RunCfg.default seed) k *
              meanMass m (lawOf f) ds ps) := by
  have h := default_physical seed
  obtain ⟨f, hf, hp, v0, hv0, hν⟩ := C136_laws h k
  obtain ⟨lo, hi, step, slope, e, h1, h2, h3⟩ := default_regimes seed regime hr
  have hwet : share (RunCfg.default seed) k * wet (RunCfg.default seed) k ≤ 1 := by
    cases k <;> simp [share, wet, RunCfg.default] <;> norm_num
  have hwat : 0 < water (RunCfg.default seed) k := by
    cases k <;> simp [water, RunCfg.default] <;> norm_num
  refine ⟨f, hf, lo, hi, step, slope, e, fun ds ps t hs => ?_⟩
  obtain ⟨e1, e2⟩ := C136_mean h rfl k hwet regime hr m hm (lawOf f) v0 hv0 hν lo hi step slope ds ps e
    hs t
  have hmm := e2 hwat
  have hx := default_expected_pos seed k lo hi t h1 h2 h3
  have hw0 : 0 < wet (RunCfg.default seed) k := by
    cases k <;> simp [wet, RunCfg.default] <;> norm_num
  refine ⟨by positivity, share (RunCfg.default seed) k, ?_, ?_, by rw [e1]; ring⟩
  · rintro rfl
    simp [share, RunCfg.default]; norm_num
  · rintro rfl
    simp [share, RunCfg.default]; norm_num

/-! ## The hypotheses can be met -/

/-- There is a mass for each impactor. -/
theorem massOf_iceOf {c : RunCfg} (h : PhysicalCfg c) (hc : c.is_comet = false) (k : Kind)
    (regime : String) (hr : regime = "d" ∨ regime = "e") (D v : ℝ) (hD : 0 < D) (hv : 0 < v) :
    IceOf c k regime D v (massOf c k regime D v) := by
  obtain ⟨x, hx, -⟩ := largeCraterIce_ok (physical_kind h k) regime (by tauto) D v hD hv
  have := largeCraterIce_spec h hc k regime (by tauto) D v x hD hv hx
  rwa [iceOf_eq h k regime D v x hv this] at this

/-- The default configuration with large simple craters, asteroids and comets. -/
example (seed : Int) (k : Kind) : ∃ f, SpeedDensity (RunCfg.default seed) k f ∧
    ∀ ds ps t, Sizes 1.5e3 15e3 1e2 (-1.8) ds ps →
      meanShower (massOf (RunCfg.default seed) k "d") (lawOf f) ds ps
        (share (RunCfg.default seed) k * wet (RunCfg.default seed) k)
        (expected (RunCfg.default seed) k 1.5e3 15e3 t) <
      expected (RunCfg.default seed) k 1.5e3 15e3 t * wet (RunCfg.default seed) k *
        meanMass (massOf (RunCfg.default seed) k "d") (lawOf f) ds ps := by
  have h := default_physical seed
  obtain ⟨f, hf, hp, v0, hv0, hν⟩ := C136_laws h k
  refine ⟨f, hf, fun ds ps t hs => ?_⟩
  refine (C136_share_refuted h rfl rfl ?_ ?_ k ?_ ?_ ?_ "d" (Or.inl rfl) _
    (fun D v => massOf_iceOf h rfl k "d" (Or.inl rfl) D v) (lawOf f) v0 hv0 hν _ _ _ _ ds ps rfl hs t
    (default_expected_pos seed k _ _ t (by norm_num) (by norm_num) (by norm_num))).2
  · simp [RunCfg.default]; norm_num
  · simp [RunCfg.default]; norm_num
  · cases k <;> simp [share, wet, RunCfg.default] <;> norm_num
  · cases k <;> simp [wet, RunCfg.default] <;> norm_num
  · cases k <;> simp [water, RunCfg.default] <;> norm_num

/-- Two craters or three with equal chance, all of one diameter, each wet with a chance of one half, at one
speed. -/
example : meanShower (fun d v => d * v) (Measure.dirac 2) [3] [1] (1 / 2) (5 / 2) = 15 / 2 := by
  rw [meanShower_eq (fun d v => d * v) (Measure.dirac 2) [3] [1] rfl (by norm_num) _ _ (by norm_num)
    (by norm_num) (by norm_num)]
  · simp [meanMass]; norm_num
  · intro d _
    exact integrable_dirac enorm_lt_top

end MoonPIES
