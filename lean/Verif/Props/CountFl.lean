import Verif.Model.CountFl
import Verif.Lemmas.TimeFl
import Verif.Lemmas.Float
import Verif.Props.Rounding
import Mathlib.Tactic.Linarith
import Mathlib.Tactic.Positivity
import Mathlib.Tactic.FieldSimp
import Mathlib.Tactic.Ring

/-!
# C137: counting impacts in rounded arithmetic
-/

namespace MoonPIES

open Spec

variable {K : Type} [Field K] [LinearOrder K] [IsStrictOrderedRing K] [FloorRing K]

/-! ## Draws below a threshold -/

theorem count_lt (N : Nat) (c : Int) (h0 : 0 ≤ c) (h1 : c ≤ N) :
    (((List.range N).filter (fun k : Nat => decide ((k : Int) < c))).length : Int) = c := by
  obtain ⟨m, rfl⟩ := Int.eq_ofNat_of_zero_le h0
  have hm : m ≤ N := by exact_mod_cast h1
  obtain ⟨r, rfl⟩ := Nat.exists_eq_add_of_le hm
  rw [List.range_add, List.filter_append, List.filter_eq_self.2, List.filter_eq_nil_iff.2]
  · simp
  · intro k hk
    obtain ⟨j, -, rfl⟩ := List.mem_map.1 hk
    simp
  · intro k hk
    simpa using hk

/-- **C137** the share of the draws below a chance is the chance up to `2⁻⁵³`. -/
theorem C137_chance (p : K) (h0 : 0 ≤ p) (h1 : p ≤ 1) :
    ∃ s : Nat, s = ((List.range (2 ^ 53)).filter
        (fun k => decide ((uniformDouble k : K) < p))).length ∧
      p ≤ (s : K) / 2 ^ 53 ∧ (s : K) / 2 ^ 53 < p + 1 / 2 ^ 53 := by
  refine ⟨_, rfl, ?_⟩
  have e : (List.range (2 ^ 53)).filter (fun k => decide ((uniformDouble k : K) < p)) =
      (List.range (2 ^ 53)).filter (fun k : Nat => decide ((k : Int) < ⌈p * 2 ^ 53⌉)) := by
    apply List.filter_congr
    intro k _
    rw [decide_eq_decide, Int.lt_ceil]
    unfold uniformDouble
    rw [div_lt_iff₀ (by positivity)]
    push_cast
    rfl
  rw [e]
  have hc0 : 0 ≤ ⌈p * 2 ^ 53⌉ := Int.ceil_nonneg (by positivity)
  have hc1 : ⌈p * 2 ^ 53⌉ ≤ (2 ^ 53 : Nat) := by
    rw [Int.ceil_le]
    push_cast
    nlinarith [show (0 : K) < 2 ^ 53 from by positivity]
  have hc := count_lt (2 ^ 53) ⌈p * 2 ^ 53⌉ hc0 hc1
  have hc' : ((((List.range (2 ^ 53)).filter (fun k : Nat => decide ((k : Int) < ⌈p * 2 ^ 53⌉))).length : Nat) : K) =
      (⌈p * 2 ^ 53⌉ : K) := by exact_mod_cast congrArg (Int.cast : Int → K) hc
  rw [hc', le_div_iff₀ (by positivity), div_lt_iff₀ (by positivity), add_mul, one_div,
    inv_mul_cancel₀ (by positivity)]
  exact ⟨Int.le_ceil _, Int.ceil_lt_add_one _⟩

omit [FloorRing K] in
theorem fd_step (fd : K → K) (hr : Rounding fd) (h1 : fd 1 = 1) (w : K) (hfd : RelErr fd w)
    (q y b e : K) (hq0 : 0 ≤ q) (hq1 : q ≤ 1) (hqy : |q - y| ≤ e) (hb0 : 0 ≤ b) (hb1 : b ≤ 1) (hw : 0 ≤ w) :
    0 ≤ fd (q * b) ∧ fd (q * b) ≤ 1 ∧ |fd (q * b) - y * b| ≤ e + w := by
  have m0 : 0 ≤ q * b := mul_nonneg hq0 hb0
  have m1 : q * b ≤ 1 := mul_le_one₀ hq1 hb0 hb1
  refine ⟨by have := hr.mono m0; rwa [hr.zero] at this, by have := hr.mono m1; rwa [h1] at this, ?_⟩
  have a1 : |fd (q * b) - q * b| ≤ w := by
    refine (hfd _).trans ?_
    rw [abs_of_nonneg m0]
    exact mul_le_of_le_one_right hw m1
  have a2 : |q * b - y * b| ≤ e := by
    rw [← sub_mul, abs_mul, abs_of_nonneg hb0]
    exact (mul_le_of_le_one_right (abs_nonneg _) hb1).trans hqy
  calc |fd (q * b) - y * b| = |(fd (q * b) - q * b) + (q * b - y * b)| := by ring_nf
    _ ≤ |fd (q * b) - q * b| + |q * b - y * b| := abs_add_le _ _
    _ ≤ e + w := by linarith

omit [FloorRing K] in
/-- The rounded chance of an asteroid being wet. -/
theorem hydProbFl_near (fd : K → K) (hr : Rounding fd) (h1 : fd 1 = 1) (hfd : RelErr fd (1 / 2 ^ 53))
    (c : ImpCfg K) (hc : 0 ≤ c.cometFrac ∧ c.cometFrac ≤ 1) (ha : 0 ≤ c.ctypeFrac ∧ c.ctypeFrac ≤ 1)
    (hb : 0 ≤ c.ctypeHyd ∧ c.ctypeHyd ≤ 1) :
    0 ≤ hydProbFl fd c ∧ hydProbFl fd c ≤ 1 ∧ |hydProbFl fd c - hydProbBasins c| ≤ 3 / 2 ^ 53 := by
  obtain ⟨w, hw⟩ : ∃ w : K, w = 1 / 2 ^ 53 := ⟨_, rfl⟩
  have hw0 : 0 ≤ w := by rw [hw]; positivity
  have e3 : (3 : K) / 2 ^ 53 = 3 * w := by rw [hw]; ring
  rw [← hw] at hfd
  rw [e3]
  unfold hydProbFl hydProbBasins
  split
  · obtain ⟨p0, p1, p2⟩ := fd_step fd hr h1 w hfd (1 - c.cometFrac) (1 - c.cometFrac) 1 0
      (by linarith) (by linarith) (by simp) zero_le_one le_rfl hw0
    rw [mul_one] at p0 p1 p2
    obtain ⟨q0, q1, q2⟩ := fd_step fd hr h1 w hfd _ _ c.ctypeFrac _ p0 p1 p2 ha.1 ha.2 hw0
    obtain ⟨r0, r1, r2⟩ := fd_step fd hr h1 w hfd _ _ c.ctypeHyd _ q0 q1 q2 hb.1 hb.2 hw0
    exact ⟨r0, r1, r2.trans (by linarith)⟩
  · obtain ⟨q0, q1, q2⟩ := fd_step fd hr h1 w hfd c.ctypeFrac c.ctypeFrac c.ctypeHyd 0
      ha.1 ha.2 (by simp) hb.1 hb.2 hw0
    exact ⟨q0, q1, q2.trans (by linarith)⟩

/-- **C137** of all the draws of `get_random_hydrated_craters` the share that makes a wet impactor is the exact
chance up to `4 · 2⁻⁵³`. -/
theorem C137_wet (fd : K → K) (hr : Rounding fd) (h1 : fd 1 = 1) (hfd : RelErr fd (1 / 2 ^ 53))
    (c : ImpCfg K) (hc : 0 ≤ c.cometFrac ∧ c.cometFrac ≤ 1) (ha : 0 ≤ c.ctypeFrac ∧ c.ctypeFrac ≤ 1)
    (hb : 0 ≤ c.ctypeHyd ∧ c.ctypeHyd ≤ 1) :
    |(((hydratedCratersFl fd c ((List.range (2 ^ 53)).map uniformDouble)).count true : Nat) : K) / 2 ^ 53 -
      hydProbCraters c| ≤ 4 / 2 ^ 53 := by
  obtain ⟨p, hp⟩ : ∃ p, p = if c.isComet then c.cometFrac else hydProbFl fd c := ⟨_, rfl⟩
  have near := hydProbFl_near fd hr h1 hfd c hc ha hb
  have w0 : (0 : K) ≤ 1 / 2 ^ 53 := by positivity
  have e4 : (4 : K) / 2 ^ 53 = 4 * (1 / 2 ^ 53) := by ring
  have e3 : (3 : K) / 2 ^ 53 = 3 * (1 / 2 ^ 53) := by ring
  have hpp : 0 ≤ p ∧ p ≤ 1 ∧ |p - hydProbCraters c| ≤ 3 / 2 ^ 53 := by
    rw [hp]
    unfold hydProbCraters
    split
    · exact ⟨hc.1, hc.2, by rw [sub_self, abs_zero]; positivity⟩
    · exact near
  obtain ⟨s, hs, s1, s2⟩ := C137_chance p hpp.1 hpp.2.1
  have hcount : (hydratedCratersFl fd c ((List.range (2 ^ 53)).map uniformDouble)).count true = s := by
    unfold hydratedCratersFl
    rw [hs]
    generalize List.range (2 ^ 53) = l
    rw [List.map_map, ← hp, List.count, List.countP_map, List.countP_eq_length_filter]
    congr 1
    apply List.filter_congr
    intro k _
    simp
  rw [hcount, e4]
  have := abs_le.1 hpp.2.2
  rw [e3] at this
  rw [abs_le]
  constructor <;> linarith

/-! ## Probabilistic rounding -/

/-- Hermite's identity in integers. -/
theorem sum_div (N : Nat) (hN : 0 < N) (m : Int) :
    ((List.range N).map (fun k : Nat => (m + k) / (N : Int))).sum = m := by
  have hN' : (0 : Int) < N := by exact_mod_cast hN
  have shift : ∀ m : Int, ((List.range N).map (fun k : Nat => (m + 1 + k) / (N : Int))).sum =
      ((List.range N).map (fun k : Nat => (m + k) / (N : Int))).sum + 1 := by
    intro m
    obtain ⟨n, rfl⟩ : ∃ n, N = n + 1 := ⟨N - 1, by omega⟩
    conv_lhs => rw [List.range_succ]
    conv_rhs => rw [List.range_succ_eq_map]
    simp only [List.map_append, List.map_cons, List.map_nil, List.sum_append, List.sum_cons, List.sum_nil,
      List.map_map, Function.comp_def]
    have e1 : ∀ k : Nat, (m + ((k + 1 : Nat) : Int)) = m + 1 + k := by intro k; push_cast; ring
    simp only [Nat.succ_eq_add_one, e1]
    have e2 : (m + 1 + (n : Int)) / ((n + 1 : Nat) : Int) = m / ((n + 1 : Nat) : Int) + 1 := by
      have : m + 1 + (n : Int) = m + 1 * ((n + 1 : Nat) : Int) := by push_cast; ring
      rw [this, Int.add_mul_ediv_right _ _ (by omega)]
    rw [e2]
    push_cast
    ring_nf
  have zero : ((List.range N).map (fun k : Nat => ((0 : Int) + k) / (N : Int))).sum = 0 := by
    apply List.sum_eq_zero
    intro x hx
    obtain ⟨k, hk, rfl⟩ := List.mem_map.1 hx
    rw [zero_add]
    have := List.mem_range.1 hk
    exact Int.ediv_eq_zero_of_lt (by omega) (by omega)
  induction m using Int.induction_on with
  | zero => exact zero
  | succ i ih => rw [shift, ih]
  | pred i ih =>
    have := shift (-(i : Int) - 1)
    rw [show (-(i : Int) - 1 + 1) = -(i : Int) by ring, ih] at this
    omega

/-- Hermite's identity. -/
theorem sum_floor (N : Nat) (hN : 0 < N) (y : K) :
    ((List.range N).map (fun k : Nat => ⌊y + (k : K) / N⌋)).sum = ⌊y * N⌋ := by
  have hN' : (0 : K) < N := by exact_mod_cast hN
  rw [← sum_div N hN ⌊y * N⌋]
  congr 1
  apply List.map_congr_left
  intro k _
  rw [← Int.floor_add_natCast, ← Int.floor_div_natCast]
  congr 1
  field_simp

theorem sum_mono {l : List Nat} {f g : Nat → Int} (h : ∀ k ∈ l, f k ≤ g k) :
    (l.map f).sum ≤ (l.map g).sum := List.sum_le_sum h

/-- **C137** in double precision the mean of the rounded number over all draws is within `(x + 2) · 2⁻⁵³` of
the number. -/
theorem C137_bias (fd : K → K) (hfd : RelErr fd (1 / 2 ^ 53)) (x : K) (hx : 0 ≤ x) :
    |((((List.range (2 ^ 53)).map (fun k => probRoundFl fd x (uniformDouble k))).sum : Int) : K) / 2 ^ 53 - x| <
      (x + 2) / 2 ^ 53 := by
  obtain ⟨N, hN⟩ : ∃ N : Nat, N = 2 ^ 53 := ⟨_, rfl⟩
  have hN0 : 0 < N := by rw [hN]; positivity
  have hNK : (0 : K) < N := by exact_mod_cast hN0
  have hc : (2 : K) ^ 53 = N := by rw [hN, Nat.cast_pow, Nat.cast_ofNat]
  rw [← hN, hc]
  obtain ⟨e, he⟩ : ∃ e : K, e = (x + 1) / N := ⟨_, rfl⟩
  have hu : ∀ k ∈ List.range N, |fd (x + uniformDouble k) - (x + uniformDouble k)| ≤ e := by
    intro k hk
    have hk' : (k : K) < N := by exact_mod_cast List.mem_range.1 hk
    have h1 : (0 : K) ≤ uniformDouble k := by unfold uniformDouble; positivity
    have h2 : (uniformDouble k : K) ≤ 1 := by
      unfold uniformDouble; rw [hc, div_le_one hNK]; exact hk'.le
    refine (hfd _).trans ?_
    rw [abs_of_nonneg (by linarith), hc, he, div_mul_eq_mul_div, one_mul]
    gcongr
  have lower := sum_mono (l := List.range N) (f := fun k : Nat => ⌊(x - e) + (k : K) / N⌋)
    (g := fun k => probRoundFl fd x (uniformDouble k)) (by
      intro k hk
      apply Int.floor_le_floor
      have := (abs_le.1 (hu k hk)).1
      unfold uniformDouble at this ⊢
      rw [hc] at this ⊢
      linarith)
  have upper := sum_mono (l := List.range N) (f := fun k => probRoundFl fd x (uniformDouble k))
    (g := fun k : Nat => ⌊(x + e) + (k : K) / N⌋) (by
      intro k hk
      apply Int.floor_le_floor
      have := (abs_le.1 (hu k hk)).2
      unfold uniformDouble at this ⊢
      rw [hc] at this ⊢
      linarith)
  rw [sum_floor N hN0] at lower upper
  obtain ⟨S, hS⟩ : ∃ S, S = ((List.range N).map (fun k => probRoundFl fd x (uniformDouble k))).sum := ⟨_, rfl⟩
  rw [← hS] at lower upper ⊢
  have l1 : (x - e) * N < (S : K) + 1 := by
    have h := Int.lt_floor_add_one ((x - e) * N)
    have : ((⌊(x - e) * N⌋ : Int) : K) ≤ S := by exact_mod_cast lower
    linarith
  have u1 : (S : K) ≤ (x + e) * N := by
    have h := Int.floor_le ((x + e) * N)
    have : (S : K) ≤ ((⌊(x + e) * N⌋ : Int) : K) := by exact_mod_cast upper
    linarith
  have heN : e * N = x + 1 := by rw [he, div_mul_cancel₀ _ hNK.ne']
  rw [sub_mul, heN] at l1
  rw [add_mul, heN] at u1
  have key : (S : K) / N - x = (S - x * N) / N := by field_simp
  rw [key, abs_div, abs_of_pos hNK, div_lt_div_iff_of_pos_right hNK, abs_lt]
  constructor <;> linarith

/-- **C137** it rounds to a neighbour unless the sum is within its rounding error of the next number; it is
never more than one off. -/
theorem C137_neighbour_partial (fd : K → K) (hr : Rounding fd) (hfd : RelErr fd (1 / 2 ^ 53))
    (hint : ∀ n : Nat, n ≤ 2 ^ 53 → fd n = n) (x u : K) (hx : 0 ≤ x) (hx1 : x + 2 ≤ 2 ^ 53) (h0 : 0 ≤ u)
    (h1 : u < 1) :
    (⌊x⌋ ≤ probRoundFl fd x u ∧ probRoundFl fd x u ≤ ⌈x⌉ + 1) ∧
    (x + u + (x + 1) / 2 ^ 53 < ⌈x⌉ + 1 → probRoundFl fd x u = ⌊x⌋ ∨ probRoundFl fd x u = ⌈x⌉) := by
  obtain ⟨n, hn⟩ : ∃ n : Nat, ⌊x⌋ = n := Int.eq_ofNat_of_zero_le (Int.floor_nonneg.2 hx)
  obtain ⟨m, hm⟩ : ∃ m : Nat, ⌈x⌉ = m := Int.eq_ofNat_of_zero_le (Int.ceil_nonneg hx)
  have hnx : (n : K) ≤ x := by have := Int.floor_le x; rw [hn] at this; exact_mod_cast this
  have hxm : x ≤ m := by have := Int.le_ceil x; rw [hm] at this; exact_mod_cast this
  have hmx : (m : K) < x + 1 := by have := Int.ceil_lt_add_one x; rw [hm] at this; exact_mod_cast this
  have hmn : m ≤ n + 1 := by
    have h2 := Int.ceil_le_floor_add_one x
    rw [hm, hn] at h2
    exact_mod_cast h2
  have hm53 : m + 1 ≤ 2 ^ 53 := by
    have : ((m + 1 : Nat) : K) ≤ ((2 ^ 53 : Nat) : K) := by
      rw [Nat.cast_pow, Nat.cast_ofNat]; push_cast; linarith
    exact_mod_cast this
  have hn53 : n ≤ 2 ^ 53 := by
    have : (n : K) ≤ ((2 ^ 53 : Nat) : K) := by
      rw [Nat.cast_pow, Nat.cast_ofNat]; linarith
    exact_mod_cast this
  have low : ⌊x⌋ ≤ probRoundFl fd x u := by
    unfold probRoundFl
    rw [Int.le_floor, hn]
    have := hr.mono (show (n : K) ≤ x + u by linarith)
    rw [hint n hn53] at this
    exact_mod_cast this
  refine ⟨⟨low, ?_⟩, fun h => ?_⟩
  · unfold probRoundFl
    have := hr.mono (show x + u ≤ ((m + 1 : Nat) : K) by push_cast; linarith)
    rw [hint _ hm53] at this
    have h2 : ((⌊fd (x + u)⌋ : Int) : K) ≤ ((m + 1 : Nat) : K) := (Int.floor_le _).trans this
    rw [hm]
    exact_mod_cast h2
  · have hup : probRoundFl fd x u < ⌈x⌉ + 1 := by
      unfold probRoundFl
      rw [Int.floor_lt]
      have h2 := (abs_le.1 (hfd (x + u))).2
      rw [abs_of_nonneg (by linarith)] at h2
      have h3 : 1 / 2 ^ 53 * (x + u) ≤ (x + 1) / 2 ^ 53 := by
        rw [div_mul_eq_mul_div, one_mul]; gcongr
      push_cast
      linarith
    rw [hm] at hup ⊢
    rw [hn] at low ⊢
    omega

/-- **C137 (refuted)** a whole number is not always kept: with the greatest draw, 5 becomes 6. -/
theorem C137_neighbour_refuted : probRoundFl (roundFloat 52 none : ℚ → ℚ) 5 (uniformDouble (2 ^ 53 - 1)) = 6 ∧
    (uniformDouble (2 ^ 53 - 1) : ℚ) < 1 := by
  decide +kernel

/-! ## Asteroids and comets -/

omit [FloorRing K] in
/-- **C137** no basin is made by an asteroid and a comet, whatever the rounding. -/
theorem C137_exclusive (fd : K → K) (hr : Rounding fd) (c : ImpCfg K)
    (h1 : c.cometFrac ≤ 1) (hcomets : c.comets = true)
    (ha : 0 ≤ c.ctypeFrac ∧ c.ctypeFrac ≤ 1) (hb : 0 ≤ c.ctypeHyd ∧ c.ctypeHyd ≤ 1) (u : List K) (i : Nat) :
    ¬ ((hydratedBasinsFl fd c u).1[i]? = some true ∧ (hydratedBasinsFl fd c u).2[i]? = some true) := by
  rintro ⟨k1, k2⟩
  unfold hydratedBasinsFl at k1 k2
  simp only [List.getElem?_map, Option.map_eq_some_iff, decide_eq_true_eq] at k1 k2
  obtain ⟨x, hx, k1⟩ := k1
  obtain ⟨y, hy, k2⟩ := k2
  rw [hx, Option.some.injEq] at hy
  subst hy
  have hp : 0 ≤ fd (1 - c.cometFrac) := by
    have := hr.mono (show (0 : K) ≤ 1 - c.cometFrac by linarith)
    rwa [hr.zero] at this
  have hid := hr.idem (1 - c.cometFrac)
  have s1 : fd (fd (1 - c.cometFrac) * c.ctypeFrac) ≤ fd (1 - c.cometFrac) := by
    have := hr.mono (mul_le_of_le_one_right hp ha.2)
    rwa [hid] at this
  have s0 : 0 ≤ fd (fd (1 - c.cometFrac) * c.ctypeFrac) := by
    have := hr.mono (mul_nonneg hp ha.1)
    rwa [hr.zero] at this
  have s2 : hydProbFl fd c ≤ fd (1 - c.cometFrac) := by
    unfold hydProbFl
    rw [if_pos hcomets]
    have := hr.mono (mul_le_of_le_one_right s0 hb.2)
    rw [hr.idem] at this
    exact this.trans s1
  linarith

/-! ## Counts of steps -/

/-- **C137** whole numbers are divided exactly: the quotient of whole numbers below `2⁵³` in double precision
has the whole part of the exact quotient. -/
theorem C137_steps (fd : K → K) (hr : Rounding fd) (hfd : RelErr fd (1 / 2 ^ 53))
    (hint : ∀ n : Nat, n ≤ 2 ^ 53 → fd n = n) (a b : Nat) (ha : a < 2 ^ 53) (hb : 0 < b) :
    pyInt (fd ((a : K) / b)) = ((a / b : Nat) : Int) := by
  have hbK : (0 : K) < b := by exact_mod_cast hb
  have hq0 : (0 : K) ≤ (a : K) / b := by positivity
  have hf0 : 0 ≤ fd ((a : K) / b) := by
    have := hr.mono hq0
    rwa [hr.zero] at this
  unfold pyInt
  rw [if_pos hf0, Int.floor_eq_iff]
  have h1 : ((a / b : Nat) : K) ≤ (a : K) / b := Nat.cast_div_le
  have hle : a / b ≤ 2 ^ 53 := (Nat.div_le_self a b).trans ha.le
  refine ⟨?_, ?_⟩
  · have := hr.mono h1
    rw [hint _ hle] at this
    exact_mod_cast this
  · have h2 : a + 1 ≤ b * (a / b + 1) := Nat.lt_mul_div_succ a hb
    have h3 : ((a : K) + 1) ≤ b * (((a / b : Nat) : K) + 1) := by exact_mod_cast h2
    have h4 := (abs_le.1 (hfd ((a : K) / b))).2
    rw [abs_of_nonneg hq0] at h4
    have ha' : (a : K) < 2 ^ 53 := by
      have : (a : K) < ((2 ^ 53 : Nat) : K) := by exact_mod_cast ha
      rwa [Nat.cast_pow, Nat.cast_ofNat] at this
    have h5 : 1 / 2 ^ 53 * ((a : K) / b) < 1 / b := by
      rw [div_mul_div_comm, one_mul, div_lt_div_iff₀ (by positivity) hbK]
      have := mul_lt_mul_of_pos_right ha' hbK
      linarith
    have h6 : (a : K) / b + 1 / b ≤ ((a / b : Nat) : K) + 1 := by
      rw [← add_div, div_le_iff₀ hbK]
      linarith
    rw [Int.cast_natCast]
    linarith

omit [IsStrictOrderedRing K] in
/-- The number of diameters. -/
theorem diamArrayFl_length (fd fs : K → K) (dmin dmax step : K) (hs : step ≠ 0) (n : Nat)
    (hn : pyInt (fd (fd (dmax - dmin) / step)) = n) :
    (diamArrayFl fd fs dmin dmax step).map List.length = .ok (n + 1) := by
  unfold diamArrayFl linspaceFl
  rw [if_neg hs, hn, if_neg (by omega)]
  simp only [Except.map, List.length_map]
  have : ((n : Int) + 1).toNat = n + 1 := by omega
  split <;> simp [this]

/-- **C137** with whole numbers as settings the number of diameters is exact. -/
theorem C137_sizes_partial (fd fs : K → K) (hr : Rounding fd) (hfd : RelErr fd (1 / 2 ^ 53))
    (hint : ∀ n : Nat, n ≤ 2 ^ 53 → fd n = n) (dmin dmax step : Nat) (h : dmin ≤ dmax) (hd : dmax < 2 ^ 53)
    (hs : 0 < step) :
    (diamArrayFl fd fs (dmin : K) dmax step).map List.length = .ok ((dmax - dmin) / step + 1) := by
  apply diamArrayFl_length _ _ _ _ _ (by exact_mod_cast hs.ne')
  rw [← Nat.cast_sub h, hint _ (by omega)]
  exact C137_steps fd hr hfd hint _ _ (by omega) hs

/-- The numbers of the regimes (config.py:221-228) as doubles. -/
def fd64 (x : ℚ) : ℚ := roundFloat 52 none x

/-- **C137** each regime of the default configuration has the diameters that its three numbers say. -/
theorem C137_shipped :
    (diamArrayFl fd64 id (fd64 (1 / 100)) 3 (fd64 (1 / 10000))).map List.length = .ok 29901 ∧
    (diamArrayFl fd64 id 100 1500 1).map List.length = .ok 1401 ∧
    (diamArrayFl fd64 id 1500 15000 100).map List.length = .ok 136 ∧
    (diamArrayFl fd64 id 15000 300000 1000).map List.length = .ok 286 :=
  ⟨diamArrayFl_length _ _ _ _ _ (by decide +kernel) _ (by decide +kernel),
    diamArrayFl_length _ _ _ _ _ (by decide +kernel) _ (by decide +kernel),
    diamArrayFl_length _ _ _ _ _ (by decide +kernel) _ (by decide +kernel),
    diamArrayFl_length _ _ _ _ _ (by decide +kernel) _ (by decide +kernel)⟩

/-- **C137 (refuted)** other numbers lose a diameter: from 0.2 to 0.5 in steps of 0.1 there are 4 diameters, the
code makes 3. -/
theorem C137_sizes_refuted :
    (diamArrayFl fd64 id (fd64 (2 / 10)) (fd64 (5 / 10)) (fd64 (1 / 10))).map List.length = .ok 3 ∧
    ((5 / 10 - 2 / 10) / (1 / 10) + 1 : ℚ) = 4 := by
  refine ⟨by decide +kernel, by norm_num⟩

/-! ## The hypotheses hold of double precision -/

example : Rounding (roundFloat 52 none : ℚ → ℚ) ∧ RelErr (roundFloat 52 none : ℚ → ℚ) (1 / 2 ^ 53) ∧
    ∀ n : Nat, n ≤ 2 ^ 53 → (roundFloat 52 none : ℚ → ℚ) n = n :=
  ⟨roundFloat_rounding 52 none, roundFloat_relErr 52, fun n hn => roundFloat_nat 52 n hn⟩

/-- 6.1 becomes 6 or 7. -/
example : probRoundFl fd64 (fd64 (61 / 10)) (uniformDouble (2 ^ 52)) = 6 ∧
    probRoundFl fd64 (fd64 (61 / 10)) (uniformDouble (2 ^ 53 - 1)) = 7 := by
  decide +kernel

example : (diamArrayFl fd64 fd64 1500 15000 100).map List.length = .ok ((15000 - 1500) / 100 + 1) :=
  C137_sizes_partial fd64 fd64 (roundFloat_rounding 52 none) (roundFloat_relErr 52)
    (fun n hn => roundFloat_nat 52 n hn) 1500 15000 100 (by decide) (by decide) (by decide)

end MoonPIES
