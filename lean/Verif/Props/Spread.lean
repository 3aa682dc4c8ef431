import Verif.Spec.Spread
import Verif.Props.MeanIce
import Mathlib.Analysis.SpecialFunctions.Exponential

/-!
# C160: how much the ice of drawn craters varies
-/

namespace MoonPIES

open MeasureTheory Spec Real

/-! ## Squares over independent draws -/

/-- Speeds. -/
theorem meanDraws_square (m : ℝ → ℝ → ℝ) (ν : Measure ℝ) [IsProbabilityMeasure ν] :
    ∀ (icy : List ℝ) (_ : ∀ d ∈ icy, Integrable (m d) ν ∧ Integrable (fun v => m d v ^ 2) ν) (a : ℝ),
      meanDraws ν icy.length (fun vs => (a + total m icy vs) ^ 2) =
        (a + (icy.map (fun d => ∫ v, m d v ∂ν)).sum) ^ 2 +
          (icy.map (fun d => ∫ v, m d v ^ 2 ∂ν - (∫ v, m d v ∂ν) ^ 2)).sum
  | [], _, a => by simp [meanDraws, total]
  | d :: icy, h, a => by
    have ih := meanDraws_square m ν icy (fun e he => h e (List.mem_cons_of_mem _ he))
    obtain ⟨h1, h2⟩ := h d (by simp)
    rw [List.length_cons]
    unfold meanDraws
    obtain ⟨A, hA⟩ : ∃ A, A = (icy.map (fun d => ∫ v, m d v ∂ν)).sum := ⟨_, rfl⟩
    obtain ⟨B, hB⟩ : ∃ B, B = (icy.map (fun d => ∫ v, m d v ^ 2 ∂ν - (∫ v, m d v ∂ν) ^ 2)).sum :=
      ⟨_, rfl⟩
    have e : ∀ x, meanDraws ν icy.length (fun l => (a + total m (d :: icy) (x :: l)) ^ 2) =
        ((a + A) ^ 2 + B) + 2 * (a + A) * m d x + m d x ^ 2 := by
      intro x
      rw [show (fun l => (a + total m (d :: icy) (x :: l)) ^ 2) =
        fun l => ((a + m d x) + total m icy l) ^ 2 from by funext l; simp [total, add_assoc],
        ih (a + m d x), ← hA, ← hB]
      ring
    simp only [e]
    have h3 : Integrable (fun x => ((a + A) ^ 2 + B) + 2 * (a + A) * m d x) ν :=
      (integrable_const _).add (h1.const_mul _)
    rw [integral_add h3 h2,
      integral_add (integrable_const _) (h1.const_mul _), integral_const_mul]
    simp only [integral_const, probReal_univ, smul_eq_mul, one_mul, List.map_cons, List.sum_cons]
    rw [← hA, ← hB]
    ring

/-- Which impactors are wet. -/
theorem meanDraws_icy_square (M V : ℝ → ℝ) (p : ℝ) (h0 : 0 ≤ p) (h1 : p ≤ 1) :
    ∀ (craters : List ℝ) (a b : ℝ),
      meanDraws unif craters.length (fun u => (a + ((icyOf p craters u).map M).sum) ^ 2 +
          (b + ((icyOf p craters u).map V).sum)) =
        (a + p * (craters.map M).sum) ^ 2 +
          (b + (craters.map (fun d => p * (V d + M d ^ 2) - (p * M d) ^ 2)).sum)
  | [], a, b => by simp [meanDraws, icyOf]
  | d :: craters, a, b => by
    have ih := meanDraws_icy_square M V p h0 h1 craters
    rw [List.length_cons]
    unfold meanDraws
    obtain ⟨A, hA⟩ : ∃ A, A = (craters.map M).sum := ⟨_, rfl⟩
    obtain ⟨W, hW⟩ : ∃ W, W =
        (craters.map (fun d => p * (V d + M d ^ 2) - (p * M d) ^ 2)).sum := ⟨_, rfl⟩
    have e : ∀ x, meanDraws unif craters.length
        (fun l => (a + ((icyOf p (d :: craters) (x :: l)).map M).sum) ^ 2 +
          (b + ((icyOf p (d :: craters) (x :: l)).map V).sum)) =
        ((a + p * A) ^ 2 + (b + W)) + (2 * (a + p * A) * M d + M d ^ 2 + V d) *
          (Set.Iio p).indicator (fun _ => (1 : ℝ)) x := by
      intro x
      by_cases hx : x < p
      · rw [show (fun l => (a + ((icyOf p (d :: craters) (x :: l)).map M).sum) ^ 2 +
            (b + ((icyOf p (d :: craters) (x :: l)).map V).sum)) =
          fun l => ((a + M d) + ((icyOf p craters l).map M).sum) ^ 2 +
            ((b + V d) + ((icyOf p craters l).map V).sum) from by
            funext l; simp [icyOf, hx, add_assoc], ih, Set.indicator_of_mem (by exact hx), ← hA, ← hW]
        ring
      · rw [show (fun l => (a + ((icyOf p (d :: craters) (x :: l)).map M).sum) ^ 2 +
            (b + ((icyOf p (d :: craters) (x :: l)).map V).sum)) =
          fun l => (a + ((icyOf p craters l).map M).sum) ^ 2 +
            (b + ((icyOf p craters l).map V).sum) from by
            funext l; simp [icyOf, hx], ih, Set.indicator_of_notMem (by exact hx), ← hA, ← hW]
        ring
    simp only [e]
    have hi : Integrable (fun x => (2 * (a + p * A) * M d + M d ^ 2 + V d) *
        (Set.Iio p).indicator (fun _ => (1 : ℝ)) x) unif :=
      ((integrable_const (1 : ℝ)).indicator measurableSet_Iio).const_mul _
    rw [integral_add (integrable_const _) hi, integral_const_mul, unif_Iio p h0 h1]
    simp only [integral_const, probReal_univ, smul_eq_mul, one_mul, List.map_cons, List.sum_cons]
    rw [← hA, ← hW]
    ring

/-- Diameters. -/
theorem meanPick_square (ds ps : List ℝ) (hl : ps.length = ds.length) (h1 : ps.sum = 1) (A B : ℝ → ℝ)
    (α β : ℝ) (hα : α = ((ds.zip ps).map (fun q => q.2 * A q.1)).sum)
    (hβ : β = ((ds.zip ps).map (fun q => q.2 * (B q.1 + A q.1 ^ 2))).sum) : ∀ (n : ℕ) (a b : ℝ),
      meanPick ds ps n (fun l => (a + (l.map A).sum) ^ 2 + (b + (l.map B).sum)) =
        (a + n * α) ^ 2 + (b + n * (β - α ^ 2))
  | 0, a, b => by simp [meanPick]
  | n + 1, a, b => by
    have ih := meanPick_square ds ps hl h1 A B α β hα hβ n
    unfold meanPick
    have e : ∀ q : ℝ × ℝ, meanPick ds ps n
        (fun l => (a + ((q.1 :: l).map A).sum) ^ 2 + (b + ((q.1 :: l).map B).sum)) =
        ((a + n * α) ^ 2 + (b + n * (β - α ^ 2))) + 2 * (a + n * α) * A q.1 +
          (B q.1 + A q.1 ^ 2) := by
      intro q
      rw [show (fun l => (a + ((q.1 :: l).map A).sum) ^ 2 + (b + ((q.1 :: l).map B).sum)) =
        fun l => ((a + A q.1) + (l.map A).sum) ^ 2 + ((b + B q.1) + (l.map B).sum) from by
          funext l; rw [List.map_cons, List.sum_cons, List.map_cons, List.sum_cons]; ring, ih]
      ring
    simp only [e]
    have hp : ((ds.zip ps).map (fun q => q.2)).sum = 1 := by
      rw [List.map_snd_zip (by omega)]; exact h1
    obtain ⟨C, hC⟩ : ∃ C, C = (a + n * α) ^ 2 + (b + n * (β - α ^ 2)) := ⟨_, rfl⟩
    obtain ⟨E, hE⟩ : ∃ E, E = 2 * (a + n * α) := ⟨_, rfl⟩
    rw [← hC, ← hE]
    rw [show (fun q : ℝ × ℝ => q.2 * (C + E * A q.1 + (B q.1 + A q.1 ^ 2))) =
      fun q => (q.2 * C + (q.2 * A q.1) * E) + q.2 * (B q.1 + A q.1 ^ 2) from by funext q; ring,
      sum_map_add, sum_map_add, sum_map_mul_right', sum_map_mul_right', hp, ← hα, ← hβ, hC, hE]
    push_cast
    ring

/-- Any function of a count that is rounded up or down. -/
theorem round_mean (G : ℤ → ℝ) (x : ℝ) :
    ∫ r in (0 : ℝ)..1, G ⌊x + r⌋ = (1 - Int.fract x) * G ⌊x⌋ + Int.fract x * G (⌊x⌋ + 1) := by
  have hlin : Set.EqOn (fun r => G ⌊x + r⌋)
      (fun r => (G ⌊x⌋ - (G (⌊x⌋ + 1) - G ⌊x⌋) * ⌊x⌋) +
        (probRound x r : ℝ) * (G (⌊x⌋ + 1) - G ⌊x⌋)) (Set.uIcc 0 1) := by
    intro r hr
    rw [Set.uIcc_of_le zero_le_one] at hr
    have ha : ⌊x⌋ ≤ ⌊x + r⌋ := Int.floor_le_floor (by linarith [hr.1])
    have hb : ⌊x + r⌋ ≤ ⌊x⌋ + 1 := by
      rw [← Int.floor_add_one]; exact Int.floor_le_floor (by linarith [hr.2])
    unfold probRound
    simp only []
    rcases (by omega : ⌊x + r⌋ = ⌊x⌋ ∨ ⌊x + r⌋ = ⌊x⌋ + 1) with h | h <;> rw [h] <;> push_cast <;> ring
  have hint : IntervalIntegrable (fun u => (probRound x u : ℝ)) volume 0 1 := by
    apply Monotone.intervalIntegrable
    intro u v huv
    have h : probRound x u ≤ probRound x v := Int.floor_le_floor (by linarith)
    exact Int.cast_le.2 h
  rw [intervalIntegral.integral_congr hlin, intervalIntegral.integral_add
    intervalIntegrable_const (hint.mul_const _), intervalIntegral.integral_mul_const, C26_unbiased]
  simp only [intervalIntegral.integral_const, sub_zero, smul_eq_mul, one_mul]
  have hx := Int.floor_add_fract x
  obtain ⟨f, hf⟩ : ∃ f, f = Int.fract x := ⟨_, rfl⟩
  rw [← hf] at hx ⊢
  linear_combination (G (⌊x⌋ + 1) - G ⌊x⌋) * (-hx)

/-- The variance of a step, for any mass and any law of speeds. -/
theorem varianceShower_eq (m : ℝ → ℝ → ℝ) (ν : Measure ℝ) [IsProbabilityMeasure ν] (ds ps : List ℝ)
    (hl : ps.length = ds.length) (hsum : ps.sum = 1) (p x : ℝ) (h0 : 0 ≤ p) (h1 : p ≤ 1) (hx : 0 ≤ x)
    (hint : ∀ d ∈ ds, Integrable (m d) ν ∧ Integrable (fun v => m d v ^ 2) ν) :
    varianceShower m ν ds ps p x = x * (p * meanSquare m ν ds ps - (p * meanMass m ν ds ps) ^ 2) +
      Int.fract x * (1 - Int.fract x) * (p * meanMass m ν ds ps) ^ 2 := by
  obtain ⟨M, hM⟩ : ∃ M : ℝ → ℝ, M = fun d => ∫ v, m d v ∂ν := ⟨_, rfl⟩
  obtain ⟨V, hV⟩ : ∃ V : ℝ → ℝ, V = fun d => ∫ v, m d v ^ 2 ∂ν - (∫ v, m d v ∂ν) ^ 2 := ⟨_, rfl⟩
  obtain ⟨μ, hμ⟩ : ∃ μ, μ = meanMass m ν ds ps := ⟨_, rfl⟩
  obtain ⟨Q, hQ⟩ : ∃ Q, Q = meanSquare m ν ds ps := ⟨_, rfl⟩
  obtain ⟨a, ha⟩ : ∃ a, a = -meanShower m ν ds ps p x := ⟨_, rfl⟩
  have hα : p * μ = ((ds.zip ps).map (fun q => q.2 * (p * M q.1))).sum := by
    rw [hμ, hM]
    unfold meanMass
    rw [mul_comm p, ← sum_map_mul_right']
    congr 1
    apply List.map_congr_left
    intro q _
    ring
  have hβ : p * Q = ((ds.zip ps).map (fun q => q.2 *
      ((p * (V q.1 + M q.1 ^ 2) - (p * M q.1) ^ 2) + (p * M q.1) ^ 2))).sum := by
    rw [hQ, hM, hV]
    unfold meanSquare
    rw [mul_comm p, ← sum_map_mul_right']
    congr 1
    apply List.map_congr_left
    intro q _
    ring
  have e : ∀ n : ℕ, meanPick ds ps n (fun craters =>
      meanDraws (volume.restrict (Set.Ico 0 1)) craters.length (fun u =>
        meanDraws ν (icyOf p craters u).length (fun vs =>
          (total m (icyOf p craters u) vs - meanShower m ν ds ps p x) ^ 2))) =
      (a + n * (p * μ)) ^ 2 + n * (p * Q - (p * μ) ^ 2) := by
    intro n
    rw [meanPick_congr ds ps n _ (fun craters => (a + (craters.map (fun d => p * M d)).sum) ^ 2 +
      (0 + (craters.map (fun d => p * (V d + M d ^ 2) - (p * M d) ^ 2)).sum)),
      meanPick_square ds ps hl hsum (fun d => p * M d)
        (fun d => p * (V d + M d ^ 2) - (p * M d) ^ 2) (p * μ) (p * Q) hα hβ]
    · ring
    · intro craters _ hm
      have := meanDraws_icy_square M V p h0 h1 craters a 0
      have hs : (craters.map (fun d => p * M d)).sum = p * (craters.map M).sum := by
        rw [← List.sum_map_mul_left]
      rw [hs, ← this]
      change meanDraws unif _ _ = _
      congr 1
      funext u
      have h2 := meanDraws_square m ν (icyOf p craters u)
        (fun d hd => hint d (hm d (icyOf_mem p craters u d hd))) a
      rw [hM, hV, zero_add, ← h2]
      congr 1
      funext vs
      rw [ha]
      ring
  unfold varianceShower meanOf
  simp only [e]
  have hG := round_mean (fun n => (a + (n.toNat : ℝ) * (p * μ)) ^ 2 +
    (n.toNat : ℝ) * (p * Q - (p * μ) ^ 2)) x
  rw [hG]
  have hfl : 0 ≤ ⌊x⌋ := Int.floor_nonneg.2 hx
  have c1 : ((⌊x⌋.toNat : ℕ) : ℝ) = (⌊x⌋ : ℝ) := by
    exact_mod_cast congrArg (Int.cast : ℤ → ℝ) (Int.toNat_of_nonneg hfl)
  have c2 : (((⌊x⌋ + 1).toNat : ℕ) : ℝ) = (⌊x⌋ : ℝ) + 1 := by
    exact_mod_cast congrArg (Int.cast : ℤ → ℝ) (Int.toNat_of_nonneg (by omega : 0 ≤ ⌊x⌋ + 1))
  rw [c1, c2]
  have hmean := meanShower_eq m ν ds ps hl hsum p x h0 h1 hx (fun d hd => (hint d hd).1)
  rw [← hμ] at hmean
  rw [hmean] at ha
  have hxf := Int.floor_add_fract x
  obtain ⟨f, hf⟩ : ∃ f, f = Int.fract x := ⟨_, rfl⟩
  obtain ⟨k, hk⟩ : ∃ k : ℝ, k = (⌊x⌋ : ℝ) := ⟨_, rfl⟩
  rw [← hμ, ← hQ, ha]
  rw [← hf, ← hk] at hxf ⊢
  rw [← hxf]
  ring

/-! ## Independent impacts -/

theorem exp_hasSum (y : ℝ) : HasSum (fun n : ℕ => y ^ n / n.factorial) (exp y) := by
  have := NormedSpace.expSeries_div_hasSum_exp (𝔸 := ℝ) y
  rwa [← Real.exp_eq_exp_ℝ] at this

theorem exp_hasSum_one (y : ℝ) : HasSum (fun n : ℕ => (n : ℝ) * (y ^ n / n.factorial)) (y * exp y) := by
  rw [← hasSum_nat_add_iff' 1]
  simp only [Finset.range_one, Finset.sum_singleton, Nat.cast_zero, zero_mul, sub_zero]
  refine ((exp_hasSum y).mul_left y).congr_fun ?_
  intro n
  rw [Nat.factorial_succ]
  push_cast
  have : (n.factorial : ℝ) ≠ 0 := by exact_mod_cast n.factorial_ne_zero
  field_simp
  ring

theorem exp_hasSum_two (y : ℝ) :
    HasSum (fun n : ℕ => (n : ℝ) * (n - 1) * (y ^ n / n.factorial)) (y ^ 2 * exp y) := by
  rw [← hasSum_nat_add_iff' 2]
  simp only [Finset.sum_range_succ, Finset.range_zero, Finset.sum_empty, Nat.cast_zero, zero_mul,
    Nat.cast_one, sub_self, mul_zero, add_zero, sub_zero]
  refine ((exp_hasSum y).mul_left (y ^ 2)).congr_fun ?_
  intro n
  rw [Nat.factorial_succ, Nat.factorial_succ]
  push_cast
  have : (n.factorial : ℝ) ≠ 0 := by exact_mod_cast n.factorial_ne_zero
  field_simp
  ring

/-- The variance of independent impacts: their mean number times the mean square of one. -/
theorem poissonVariance_eq (m : ℝ → ℝ → ℝ) (ν : Measure ℝ) [IsProbabilityMeasure ν] (ds ps : List ℝ)
    (hl : ps.length = ds.length) (hsum : ps.sum = 1) (y : ℝ)
    (hint : ∀ d ∈ ds, Integrable (m d) ν ∧ Integrable (fun v => m d v ^ 2) ν) :
    poissonVariance m ν ds ps y = y * meanSquare m ν ds ps := by
  obtain ⟨μ, hμ⟩ : ∃ μ, μ = meanMass m ν ds ps := ⟨_, rfl⟩
  obtain ⟨Q, hQ⟩ : ∃ Q, Q = meanSquare m ν ds ps := ⟨_, rfl⟩
  have e : ∀ n : ℕ, meanPick ds ps n (fun craters =>
      meanDraws ν craters.length (fun vs => (total m craters vs - y * meanMass m ν ds ps) ^ 2)) =
      (-(y * μ) + n * μ) ^ 2 + n * (Q - μ ^ 2) := by
    intro n
    rw [meanPick_congr ds ps n _ (fun craters =>
      (-(y * μ) + (craters.map (fun d => ∫ v, m d v ∂ν)).sum) ^ 2 +
      (0 + (craters.map (fun d => ∫ v, m d v ^ 2 ∂ν - (∫ v, m d v ∂ν) ^ 2)).sum)),
      meanPick_square ds ps hl hsum (fun d => ∫ v, m d v ∂ν)
        (fun d => ∫ v, m d v ^ 2 ∂ν - (∫ v, m d v ∂ν) ^ 2) μ Q hμ]
    · ring
    · rw [hQ]
      unfold meanSquare
      simp only [sub_add_cancel]
    · intro craters _ hm
      rw [zero_add, ← meanDraws_square m ν craters (fun d hd => hint d (hm d hd)), hμ]
      congr 1
      funext vs
      ring
  unfold poissonVariance
  simp only [e]
  have h0 := (exp_hasSum y).mul_left (exp (-y) * (y * μ) ^ 2)
  have h1 := (exp_hasSum_one y).mul_left (exp (-y) * (Q - 2 * y * μ ^ 2))
  have h2 := (exp_hasSum_two y).mul_left (exp (-y) * μ ^ 2)
  have ht := (h0.add (h1.add h2)).tsum_eq
  have hexp : exp (-y) * exp y = 1 := by rw [← exp_add]; simp
  rw [← hQ]
  refine Eq.trans (tsum_congr ?_) (ht.trans ?_)
  · intro n
    ring
  · linear_combination (y * Q) * hexp

/-- The squares of the masses have a mean. -/
theorem mass_square_integrable {c : RunCfg} (h : PhysicalCfg c) (k : Kind) (regime : String)
    (m : ℝ → ℝ → ℝ) (ν : Measure ℝ) [IsProbabilityMeasure ν] (D v0 : ℝ) (hD : 0 < D) (hv0 : 0 < v0)
    (hν : ∀ᵐ v ∂ν, v0 ≤ v) (hm : ∀ v, 0 < v → IceOf c k regime D v (m D v)) :
    Integrable (fun v => m D v ^ 2) ν := by
  obtain ⟨B, hB⟩ := massOf_bound h k regime D v0 hD hv0
  have he : (fun v => massOf c k regime D v ^ 2) =ᵐ[ν] fun v => m D v ^ 2 := by
    filter_upwards [hν] with v hv
    rw [(iceOf_eq h k regime D v _ (hv0.trans_le hv) (hm v (hv0.trans_le hv))).symm]
  refine Integrable.congr ?_ he
  apply Integrable.of_bound ((massOf_measurable c k regime D).pow_const 2).aestronglyMeasurable
    (C := B ^ 2)
  filter_upwards [hν] with v hv
  obtain ⟨b1, b2, -⟩ := hB v hv
  rw [norm_eq_abs, abs_of_nonneg (by positivity)]
  gcongr

/-- **C160** the variance of the ice of a timestep: that of each impactor for itself, times the expected number of
craters, and a rest from rounding that number.  It falls short of that of impactors which fall independently of each
other, because the number of craters is rounded and not drawn: by the square of the mean ice of a crater times the
expected number, less what rounding brings. -/
theorem C160_variance {c : RunCfg} (h : PhysicalCfg c) (hc : c.is_comet = false) (k : Kind)
    (hwet : share c k * wet c k ≤ 1) (regime : String) (hr : regime = "d" ∨ regime = "e")
    (m : ℝ → ℝ → ℝ) (hm : ∀ D v, 0 < D → 0 < v → IceOf c k regime D v (m D v))
    (ν : Measure ℝ) [IsProbabilityMeasure ν] (v0 : ℝ) (hv0 : 0 < v0) (hν : ∀ᵐ v ∂ν, v0 ≤ v)
    (lo hi step slope : ℝ) (ds ps : List ℝ)
    (hreg : c.impact_regimes.get regime = .ok (lo, hi, step, slope))
    (hs : Sizes lo hi step slope ds ps) (t x p : ℝ) (hx : x = expected c k lo hi t)
    (hp : p = share c k * wet c k) :
    varianceShower m ν ds ps p x = x * (p * meanSquare m ν ds ps - (p * meanMass m ν ds ps) ^ 2) +
      Int.fract x * (1 - Int.fract x) * (p * meanMass m ν ds ps) ^ 2 ∧
    poissonVariance m ν ds ps (x * p) - varianceShower m ν ds ps p x =
      (x - Int.fract x * (1 - Int.fract x)) * (p * meanMass m ν ds ps) ^ 2 ∧
    varianceShower m ν ds ps p x ≤ poissonVariance m ν ds ps (x * p) ∧
    (0 < water c k → 0 < x → 0 < p →
      varianceShower m ν ds ps p x < poissonVariance m ν ds ps (x * p)) := by
  have hmean := (C136_mean h hc k hwet regime hr m hm ν v0 hv0 hν lo hi step slope ds ps hreg hs t).2
  have hx0 : 0 ≤ x := hx ▸ expected_nonneg h hc k hr hreg t
  obtain ⟨lo', hi', step', slope', e', h0, hs0, h1, -⟩ := regime_ok h hr
  rw [hreg, Except.ok.injEq, Prod.mk.injEq, Prod.mk.injEq, Prod.mk.injEq] at e'
  obtain ⟨rfl, rfl, rfl, rfl⟩ := e'
  have hpos := hs.pos h0 (by linarith)
  have hsum := hs.sum_one hpos
  have hp0 := chance_nonneg h k
  have hint : ∀ d ∈ ds, Integrable (m d) ν ∧ Integrable (fun v => m d v ^ 2) ν := fun d hd =>
    ⟨(mass_integrable h k regime m ν d v0 (hpos d hd) hv0 hν (fun v hv => hm d v (hpos d hd) hv)).1,
      mass_square_integrable h k regime m ν d v0 (hpos d hd) hv0 hν
        (fun v hv => hm d v (hpos d hd) hv)⟩
  have hv := varianceShower_eq m ν ds ps hs.length hsum p x (hp ▸ mul_nonneg hp0.1 hp0.2) (hp ▸ hwet)
    hx0 hint
  have hgap : poissonVariance m ν ds ps (x * p) - varianceShower m ν ds ps p x =
      (x - Int.fract x * (1 - Int.fract x)) * (p * meanMass m ν ds ps) ^ 2 := by
    rw [hv, poissonVariance_eq m ν ds ps hs.length hsum (x * p) hint]; ring
  have hxf := Int.floor_add_fract x
  have hf0 := Int.fract_nonneg x
  have hfl : (0 : ℝ) ≤ ⌊x⌋ := by exact_mod_cast Int.floor_nonneg.2 hx0
  have hge : 0 ≤ x - Int.fract x * (1 - Int.fract x) := by nlinarith
  refine ⟨hv, hgap, ?_, ?_⟩
  · have := mul_nonneg hge (sq_nonneg (p * meanMass m ν ds ps))
    linarith
  · intro hw hx1 hp1
    have hM := hmean hw
    have : 0 < x - Int.fract x * (1 - Int.fract x) := by
      rcases hf0.eq_or_lt with h2 | h2
      · rw [← h2]; linarith
      · nlinarith
    have := mul_pos this (pow_pos (mul_pos hp1 hM) 2)
    linarith

/-! ## The hypotheses can be met -/

/-- The default configuration, asteroids and comets, in both regimes whose craters are drawn one by one: the ice of
every timestep varies less than with independent impacts. -/
example (seed : Int) (k : Kind) : ∃ f, SpeedDensity (RunCfg.default seed) k f ∧
    ∀ ds ps t, Sizes 1.5e3 15e3 1e2 (-1.8) ds ps →
      varianceShower (massOf (RunCfg.default seed) k "d") (lawOf f) ds ps
        (share (RunCfg.default seed) k * wet (RunCfg.default seed) k)
        (expected (RunCfg.default seed) k 1.5e3 15e3 t) <
      poissonVariance (massOf (RunCfg.default seed) k "d") (lawOf f) ds ps
        (expected (RunCfg.default seed) k 1.5e3 15e3 t *
          (share (RunCfg.default seed) k * wet (RunCfg.default seed) k)) := by
  have h := default_physical seed
  obtain ⟨f, hf, hp, v0, hv0, hν⟩ := C136_laws h k
  refine ⟨f, hf, fun ds ps t hs => ?_⟩
  refine (C160_variance h rfl k ?_ "d" (Or.inl rfl) _
    (fun D v => massOf_iceOf h rfl k "d" (Or.inl rfl) D v) (lawOf f) v0 hv0 hν _ _ _ _ ds ps rfl hs t
    _ _ rfl rfl).2.2.2 ?_
    (default_expected_pos seed k _ _ t (by norm_num) (by norm_num) (by norm_num)) ?_
  · cases k <;> simp [share, wet, RunCfg.default] <;> norm_num
  · cases k <;> simp [water, RunCfg.default] <;> norm_num
  · cases k <;> simp [share, wet, RunCfg.default] <;> norm_num

/-- Two craters or three with equal chance, of mass 6, each wet with a chance of one half: 45/2 + 9/4, where independent
impacts would have 45. -/
example : varianceShower (fun d v => d * v) (Measure.dirac 2) [3] [1] (1 / 2) (5 / 2) = 99 / 4 ∧
    poissonVariance (fun d v => d * v) (Measure.dirac 2) [3] [1] (5 / 2 * (1 / 2)) = 45 := by
  have hf : Int.fract (5 / 2 : ℝ) = 1 / 2 := by
    rw [Int.fract_eq_iff]
    exact ⟨by norm_num, by norm_num, 2, by norm_num⟩
  constructor
  · rw [varianceShower_eq (fun d v => d * v) (Measure.dirac 2) [3] [1] rfl (by norm_num) _ _ (by norm_num)
      (by norm_num) (by norm_num), hf]
    · simp [meanMass, meanSquare]; norm_num
    · intro d _
      exact ⟨integrable_dirac enorm_lt_top, integrable_dirac enorm_lt_top⟩
  · rw [poissonVariance_eq (fun d v => d * v) (Measure.dirac 2) [3] [1] rfl (by norm_num)]
    · simp [meanSquare]; norm_num
    · intro d _
      exact ⟨integrable_dirac enorm_lt_top, integrable_dirac enorm_lt_top⟩

end MoonPIES
