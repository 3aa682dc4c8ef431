import Verif.Model.Random
import Verif.Lemmas.Except
import Mathlib.Tactic.Linarith
import Mathlib.Tactic.FieldSimp
import Mathlib.Tactic.Ring
import Mathlib.Tactic.NormNum
import Mathlib.Tactic.Positivity
import Mathlib.Data.Rat.Floor
import Mathlib.Algebra.Order.BigOperators.Group.List
import Mathlib.Algebra.BigOperators.Ring.List

/-!
# C29-C31: random impactor types, speeds and mixtures
-/

namespace MoonPIES

set_option linter.unusedSectionVars false

variable {K : Type} [Field K] [LinearOrder K] [IsStrictOrderedRing K]

/-! ## C29 -/

/-- Fractions are fractions. -/
def Spec.FracsOK (c : ImpCfg K) : Prop :=
  0 ≤ c.cometFrac ∧ c.cometFrac ≤ 1 ∧ 0 ≤ c.ctypeFrac ∧ c.ctypeFrac ≤ 1 ∧
    0 ≤ c.ctypeHyd ∧ c.ctypeHyd ≤ 1

open Spec

theorem mul3_le {a b d : K} (ha : 0 ≤ a) (hb : 0 ≤ b) (hd : 0 ≤ d) (hb1 : b ≤ 1) (hd1 : d ≤ 1) :
    a * b * d ≤ a := by
  calc a * b * d ≤ a * b * 1 := mul_le_mul_of_nonneg_left hd1 (mul_nonneg ha hb)
    _ = a * b := mul_one _
    _ ≤ a * 1 := mul_le_mul_of_nonneg_left hb1 ha
    _ = a := mul_one _

/-- **C29 refuted.** With comets switched off the two sets can overlap: a draw of
0.97 with 100% hydrated C-types and the default comet fraction 0.05 is both. -/
theorem C29_refuted : ¬ ∀ (c : ImpCfg ℚ) (u : List ℚ), FracsOK c → (∀ x ∈ u, 0 ≤ x ∧ x < 1) →
    ∀ i : Nat, ¬ ((hydratedBasins c u).1[i]? = some true ∧ (hydratedBasins c u).2[i]? = some true) := by
  intro h
  have := h ⟨false, false, true, 1 / 20, 1, 1⟩ [97 / 100] (by unfold FracsOK; norm_num)
    (by intro x hx; simp only [List.mem_singleton] at hx; subst hx; norm_num) 0
  revert this
  decide +kernel

/-- **C29 (partial).** Full claim: for every configuration (refuted).  With comets
switched on the hydrated C-type and comet basins are disjoint, for every draw; with
comets off they are disjoint when the two fractions sum to at most 1. -/
theorem C29_disjoint_partial (c : ImpCfg K) (hc : FracsOK c)
    (hon : c.comets = true ∨ c.ctypeFrac * c.ctypeHyd + c.cometFrac ≤ 1) (u : List K) (i : Nat) :
    ¬ ((hydratedBasins c u).1[i]? = some true ∧ (hydratedBasins c u).2[i]? = some true) := by
  rintro ⟨h1, h2⟩
  obtain ⟨q0, q1, f0, f1, y0, y1⟩ := hc
  simp only [hydratedBasins, List.getElem?_map] at h1 h2
  cases hu : u[i]? with
  | none => rw [hu] at h1; simp at h1
  | some x =>
    rw [hu] at h1 h2
    simp only [Option.map_some, Option.some.injEq, decide_eq_true_eq] at h1 h2
    have hp : hydProbBasins c ≤ 1 - c.cometFrac := by
      unfold hydProbBasins
      by_cases hcm : c.comets = true
      · rw [if_pos hcm]
        exact mul3_le (by linarith) f0 y0 f1 y1
      · rw [if_neg hcm]
        rcases hon with h | h
        · exact absurd h hcm
        · linarith
    linarith

/-- **C29 (partial)** the impactor column says what the draw says: a basin is a comet
exactly when basin and comet ice are on and its draw exceeds `1 - comet_ast_frac`; a
hydrated C-type exactly when basin ice is on, its draw is below the share of hydrated
C-types (of the asteroids, if there are comets) and it is not a comet. -/
theorem C29_icy_column_partial (c : ImpCfg K) (u : List K) (i : Nat) (x : K) (hx : u[i]? = some x) :
    ∃ s, (icyBasins c u)[i]? = some s ∧
      (s = "comet" ↔ c.basins = true ∧ c.comets = true ∧ 1 - c.cometFrac < x) ∧
      (s = "hyd_ctype" ↔ c.basins = true ∧
        x < (if c.comets = true then 1 - c.cometFrac else 1) * c.ctypeFrac * c.ctypeHyd ∧
        ¬ (c.comets = true ∧ 1 - c.cometFrac < x)) ∧
      (s = "comet" ∨ s = "hyd_ctype" ∨ s = "no") := by
  have hp : hydProbBasins c = (if c.comets = true then 1 - c.cometFrac else 1) * c.ctypeFrac * c.ctypeHyd := by
    unfold hydProbBasins
    split <;> ring
  rw [← hp]
  unfold icyBasins hydratedBasins
  cases hb : c.basins <;> cases hcm : c.comets <;>
    simp only [Bool.false_eq_true, if_true, if_false, List.getElem?_zipWith, List.getElem?_map, hx,
      Option.map_some] <;>
    by_cases h1 : x < hydProbBasins c <;> by_cases h2 : 1 - c.cometFrac < x <;> simp [h1, h2]

/-- Default fractions with comets on: draws giving a C-type, none, and a comet. -/
example : icyBasins (⟨false, true, true, 1 / 20, 9 / 25, 2 / 3⟩ : ImpCfg ℚ) [1 / 10, 1 / 2, 24 / 25] =
    ["hyd_ctype", "no", "comet"] := by decide +kernel

/-! ## C30 -/

/-- **C30** asteroid speeds are exactly the speeds at or above escape velocity. -/
theorem C30_asteroid (c : SpeedCfg K) (hsd : 0 < c.speedSd) (v : K) :
    asteroidSpeed c v ↔ c.escapeVel ≤ v := by
  unfold asteroidSpeed truncnormSupport
  constructor
  · rintro ⟨z, hz, _, rfl⟩
    rw [div_le_iff₀ hsd] at hz
    linarith [mul_comm z c.speedSd]
  · intro h
    refine ⟨(v - c.speedMean) / c.speedSd, ?_, by simp, by field_simp; ring⟩
    exact div_le_div_of_nonneg_right (by linarith) hsd.le

/-- The default speed configuration (m/s). -/
def defaultSpeed : SpeedCfg ℚ :=
  ⟨2380, 20000, 6000, 10200, 72000, 20000, 5000, 54000, 5000⟩

theorem comp_support (lo hi mean sd v : K) (hsd : 0 < sd) :
    truncnormSupport (-lo / sd) (some (hi / sd)) mean sd v ↔ mean - lo ≤ v ∧ v ≤ mean + hi := by
  unfold truncnormSupport
  constructor
  · rintro ⟨z, hz, hz2, rfl⟩
    have h2 := hz2 _ rfl
    rw [div_le_iff₀ hsd] at hz
    rw [le_div_iff₀ hsd] at h2
    constructor <;> linarith [mul_comm z sd]
  · rintro ⟨h1, h2⟩
    refine ⟨(v - mean) / sd, div_le_div_of_nonneg_right (by linarith) hsd.le, ?_, by field_simp; ring⟩
    intro b' hb'
    cases hb'
    exact div_le_div_of_nonneg_right (by linarith) hsd.le

/-- **C30 refuted.** With the default configuration 100 km/s is a possible comet speed,
above the configured maximum of 72 km/s. -/
theorem C30_comet_refuted : ¬ ∀ v, cometSpeed defaultSpeed v →
    defaultSpeed.cometMin ≤ v ∧ v ≤ defaultSpeed.cometMax := by
  intro h
  have := h 100000 (Or.inr ((comp_support 10200 72000 54000 5000 100000 (by norm_num)).2
    (by norm_num)))
  simp only [defaultSpeed] at this
  norm_num at this

/-- **C30 (partial).** Full claim: comet speeds lie in `[comet_speed_min,
comet_speed_max]` (refuted).  The possible speeds are exactly
`[mean - comet_speed_min, mean + comet_speed_max]` around each component's mean. -/
theorem C30_comet_partial (c : SpeedCfg K) (h1 : 0 < c.jfcSd) (h2 : 0 < c.lpcSd) (v : K) :
    cometSpeed c v ↔ (c.jfcMean - c.cometMin ≤ v ∧ v ≤ c.jfcMean + c.cometMax) ∨
      (c.lpcMean - c.cometMin ≤ v ∧ v ≤ c.lpcMean + c.cometMax) := by
  unfold cometSpeed jfcSpeed lpcSpeed
  rw [comp_support _ _ _ _ _ h1, comp_support _ _ _ _ _ h2]

/-- **C30 (partial)** the configured upper limit is exceeded for every configuration
with a positive mean, so no choice of the limits repairs it. -/
theorem C30_comet_always_exceeds_partial (c : SpeedCfg K) (h1 : 0 < c.jfcSd) (h2 : 0 < c.lpcSd)
    (hm : 0 < c.jfcMean) (hr : 0 ≤ c.cometMin + c.cometMax) :
    ∃ v, cometSpeed c v ∧ c.cometMax < v :=
  ⟨c.jfcMean + c.cometMax, (C30_comet_partial c h1 h2 _).2
    (Or.inl ⟨by linarith, le_refl _⟩), by linarith⟩

/-! ## C31 -/

theorem weights_sum (ws : List K) (h : ws.sum ≠ 0) : (ws.map (fun w => w / ws.sum)).sum = 1 := by
  have : (ws.map (fun w => w / ws.sum)).sum = ws.sum / ws.sum := by
    simp only [div_eq_mul_inv]
    generalize (ws.sum)⁻¹ = c
    clear h
    induction ws with
    | nil => simp
    | cons a l ih => simp [add_mul, ih]
  rw [this, div_self h]

/-- **C31** construction: a wrong number of weights is rejected; otherwise, unless the
weights cancel out, the weights are normalised to sum 1 in proportion. -/
theorem C31_weights (subs : List (SubModel K)) (ws : List K) :
    (ws.length ≠ subs.length → mkMixture subs (some ws) = .error .valueError) ∧
    (ws.length = subs.length → 0 < ws.sum → ∃ m, mkMixture subs (some ws) = .ok m ∧ m.subs = subs ∧
      m.weights.length = subs.length ∧ m.weights.sum = 1 ∧
      ∀ (i : Nat) w, ws[i]? = some w → m.weights[i]? = some (w / ws.sum)) := by
  constructor
  · intro h; unfold mkMixture; simp [h]
  · intro h hs
    refine ⟨⟨subs, ws.map (fun w => w / ws.sum)⟩, ?_, rfl, by simpa using h, weights_sum ws hs.ne', ?_⟩
    · unfold mkMixture; simp [h, hs.ne']
    · intro i w hw; rw [List.getElem?_map, hw]; rfl

theorem weightedSum_le (ws : List K) (hw : ∀ w ∈ ws, 0 ≤ w) : ∀ (as bs : List K),
    List.Forall₂ (· ≤ ·) as bs → weightedSum ws as ≤ weightedSum ws bs := by
  induction ws with
  | nil => intro as bs h; cases as <;> cases bs <;> simp [weightedSum]
  | cons w ws ih =>
    intro as bs h
    cases h with
    | nil => simp [weightedSum]
    | cons h1 h2 =>
      have := ih (fun w hw' => hw w (by simp [hw'])) _ _ h2
      unfold weightedSum at this ⊢
      simp only [List.zipWith_cons_cons, List.sum_cons]
      exact add_le_add (mul_le_mul_of_nonneg_right h1 (hw w (by simp))) this

theorem weightedSum_const (ws : List K) (x : K) {α : Type} (l : List α) (hl : l.length = ws.length) :
    weightedSum ws (l.map (fun _ => x)) = x * ws.sum := by
  induction ws generalizing l with
  | nil => cases l <;> simp_all [weightedSum]
  | cons w ws ih =>
    cases l with
    | nil => simp at hl
    | cons a l =>
      have := ih l (by simpa using hl)
      unfold weightedSum at this ⊢
      simp only [List.map_cons, List.zipWith_cons_cons, List.sum_cons, this]
      ring

theorem weightedSum_add (ws : List K) {α : Type} (l : List α) (f g : α → K) :
    weightedSum ws (l.map f) + weightedSum ws (l.map g) = weightedSum ws (l.map (fun a => f a + g a)) := by
  induction ws generalizing l with
  | nil => cases l <;> simp [weightedSum]
  | cons w ws ih =>
    cases l with
    | nil => simp [weightedSum]
    | cons a l =>
      have := ih l
      unfold weightedSum at this ⊢
      simp only [List.map_cons, List.zipWith_cons_cons, List.sum_cons, ← this]
      ring

theorem forall₂_map_same {α : Type} (l : List α) (f g : α → K) (h : ∀ a ∈ l, f a ≤ g a) :
    List.Forall₂ (· ≤ ·) (l.map f) (l.map g) := by
  induction l with
  | nil => exact List.Forall₂.nil
  | cons a l ih =>
    exact List.Forall₂.cons (h a (by simp)) (ih (fun a ha => h a (by simp [ha])))

/-- **C31** for non-negative weights the mixture's cdf is a convex combination: it lies
in [0,1], is monotone, tends where its parts tend, and `sf + cdf = 1`; the pdf is
non-negative. -/
theorem C31_distribution (subs : List (SubModel K)) (ws : List K) (hlen : ws.length = subs.length)
    (hpos : ∀ w ∈ ws, 0 ≤ w) (hs : 0 < ws.sum)
    (hcdf : ∀ s ∈ subs, (∀ x, 0 ≤ s.cdf x ∧ s.cdf x ≤ 1) ∧ (∀ x y, x ≤ y → s.cdf x ≤ s.cdf y) ∧
      (∀ x, s.sf x + s.cdf x = 1) ∧ ∀ x, 0 ≤ s.pdf x) :
    ∃ m, mkMixture subs (some ws) = .ok m ∧
      (∀ x, 0 ≤ m.cdf x ∧ m.cdf x ≤ 1) ∧ (∀ x y, x ≤ y → m.cdf x ≤ m.cdf y) ∧
      (∀ x, m.sf x + m.cdf x = 1) ∧ (∀ x, 0 ≤ m.pdf x) ∧
      (∀ x lo hi, (∀ s ∈ subs, lo ≤ s.cdf x ∧ s.cdf x ≤ hi) → lo ≤ m.cdf x ∧ m.cdf x ≤ hi) := by
  obtain ⟨m, hm, hsub, hl, hsum, _⟩ := (C31_weights subs ws).2 hlen hs
  have hw : ∀ w ∈ m.weights, 0 ≤ w := by
    have : m.weights = ws.map (fun w => w / ws.sum) := by
      unfold mkMixture at hm
      simp only [ne_eq, hlen, not_true_eq_false, if_false, hs.ne', and_false] at hm
      cases hm; rfl
    rw [this]
    intro w hw
    obtain ⟨v, hv, rfl⟩ := List.mem_map.1 hw
    exact div_nonneg (hpos v hv) hs.le
  have hlo : ∀ (f : SubModel K → K) lo, (∀ s ∈ subs, lo ≤ f s) →
      lo ≤ weightedSum m.weights (m.subs.map f) := by
    intro f lo h
    have h1 := weightedSum_le m.weights hw _ _ (forall₂_map_same m.subs (fun _ => lo) f (by
      rw [hsub]; exact h))
    rwa [weightedSum_const _ _ _ (by rw [hl, hsub]), hsum, mul_one] at h1
  have hhi : ∀ (f : SubModel K → K) hi, (∀ s ∈ subs, f s ≤ hi) →
      weightedSum m.weights (m.subs.map f) ≤ hi := by
    intro f hi h
    have h1 := weightedSum_le m.weights hw _ _ (forall₂_map_same m.subs f (fun _ => hi) (by
      rw [hsub]; exact h))
    rwa [weightedSum_const _ _ _ (by rw [hl, hsub]), hsum, mul_one] at h1
  refine ⟨m, hm, ?_, ?_, ?_, ?_, ?_⟩
  · intro x
    exact ⟨hlo _ 0 (fun s hs => ((hcdf s hs).1 x).1), hhi _ 1 (fun s hs => ((hcdf s hs).1 x).2)⟩
  · intro x y hxy
    apply weightedSum_le _ hw
    apply forall₂_map_same
    rw [hsub]
    exact fun s hs => (hcdf s hs).2.1 x y hxy
  · intro x
    unfold Mixture.sf Mixture.cdf
    rw [weightedSum_add]
    have : m.subs.map (fun s => s.sf x + s.cdf x) = m.subs.map (fun _ => (1 : K)) := by
      apply List.map_congr_left
      rw [hsub]
      exact fun s hs => (hcdf s hs).2.2.1 x
    rw [this, weightedSum_const _ _ _ (by rw [hl, hsub]), hsum, one_mul]
  · intro x
    exact hlo _ 0 (fun s hs => (hcdf s hs).2.2.2 x)
  · intro x lo hi h
    exact ⟨hlo _ lo (fun s hs => (h s hs).1), hhi _ hi (fun s hs => (h s hs).2)⟩

/-- **C31** sampling: each sample returned is the sample of the chosen submodel at that
position, so it is a sample of one of the submodels. -/
theorem C31_samples {α : Type} (choices : List Nat) (samples : List (List α))
    (hc : ∀ c ∈ choices, c < samples.length)
    (hl : ∀ col ∈ samples, col.length = choices.length) :
    ∃ out, npChoose choices samples = .ok out ∧ out.length = choices.length ∧
      ∀ (i c : Nat) x, choices[i]? = some c → out[i]? = some x →
        ∃ col, samples[c]? = some col ∧ col[i]? = some x := by
  classical
  by_cases hn : choices = []
  · subst hn; exact ⟨[], rfl, rfl, by simp⟩
  have hne : 0 < choices.length := List.length_pos_iff.2 hn
  have hget : ∀ i, i < choices.length → ∃ x, (do
      let c ← pyGet choices i
      match samples[c]? with
      | none => .error .valueError
      | some col => pyGet col i : Except PyErr α) = .ok x ∧
      ∃ c col, choices[i]? = some c ∧ samples[c]? = some col ∧ col[i]? = some x := by
    intro i hi
    have h1 : choices[i]? = some choices[i] := List.getElem?_eq_getElem hi
    have h2 := hc choices[i] (List.getElem_mem hi)
    have h3 : samples[choices[i]]? = some (samples[choices[i]]) := List.getElem?_eq_getElem h2
    have h4 : i < (samples[choices[i]]).length := by rw [hl _ (List.getElem_mem h2)]; exact hi
    have h5 : (samples[choices[i]])[i]? = some ((samples[choices[i]])[i]) :=
      List.getElem?_eq_getElem h4
    refine ⟨(samples[choices[i]])[i], ?_, choices[i], samples[choices[i]], h1, h3, h5⟩
    have e1 : pyGet choices i = .ok choices[i] := by unfold pyGet; rw [h1]
    have e2 : pyGet (samples[choices[i]]) i = .ok ((samples[choices[i]])[i]) := by
      unfold pyGet; rw [h5]
    rw [e1]
    show (match samples[choices[i]]? with
      | none => .error .valueError
      | some col => pyGet col i : Except PyErr α) = _
    rw [h3]
    exact e2
  obtain ⟨x0, _⟩ := hget 0 hne
  let g : Nat → α := fun i => if h : i < choices.length then (hget i h).choose else x0
  refine ⟨(List.range choices.length).map g, ?_, by simp, ?_⟩
  · unfold npChoose
    apply mapM_eq_map
    intro i hi
    rw [List.mem_range] at hi
    have := (hget i hi).choose_spec.1
    simp only [g, dif_pos hi]
    exact this
  · intro i c x hci hx
    have hi : i < choices.length := (List.getElem?_eq_some_iff.1 hci).1
    obtain ⟨c', col, h1, h2, h3⟩ := (hget i hi).choose_spec.2
    rw [h1] at hci
    cases hci
    rw [List.getElem?_map, List.getElem?_range hi] at hx
    simp only [Option.map_some, Option.some.injEq, g, dif_pos hi] at hx
    exact ⟨col, h2, by rw [h3, hx]⟩

/-- Two submodels, three samples. -/
example : npChoose [1, 0, 1] [[10, 11, 12], [20, 21, 22]] = .ok [20, 11, 22] := by decide

/-- A mixture with unnormalised weights 7 : 1, as in the comet speed model. -/
example : (mkMixture (K := ℚ) [⟨fun _ => 0, fun _ => 1 / 2, fun _ => 1 / 2⟩,
    ⟨fun _ => 0, fun _ => 1, fun _ => 0⟩] (some [7, 1])).map
      (fun m => (m.weights, m.cdf 0, m.sf 0)) = .ok ([7 / 8, 1 / 8], 9 / 16, 7 / 16) := by
  decide +kernel

/-- A missing weight is rejected. -/
example : (mkMixture (K := ℚ) [⟨fun _ => 0, fun _ => 1, fun _ => 0⟩] (some [])).map
    (fun m => m.weights) = .error .valueError := by decide +kernel

end MoonPIES
