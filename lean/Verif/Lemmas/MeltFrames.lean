import Verif.Props.Thermal
import Verif.Props.Rounding
import Verif.Model.MeltFrames
import Mathlib.Algebra.BigOperators.Group.Finset.Basic
import Mathlib.Algebra.Order.BigOperators.Ring.Finset
import Mathlib.Tactic.FieldSimp
import Mathlib.Tactic.Positivity

/-!
# Helper lemmas for the generated melt table
-/

namespace MoonPIES

set_option linter.unusedSectionVars false

variable {K : Type} [Field K] [LinearOrder K] [IsStrictOrderedRing K] [FloorRing K]

theorem stacked_some {β : Type} : ∀ (l : List β), stacked (l.map some) = .ok l
  | [] => rfl
  | x :: l => by
    have ih := stacked_some l
    unfold stacked at ih ⊢
    rw [List.map_cons, List.mapM_cons]
    simp only [bind, Except.bind, ih, pure, Except.pure]

/-- Sequential and pooled array agree. -/
theorem getMeltArr_eq {S : Type} (f : K → K → S → Except PyErr K) (mrs temps : List K)
    (seeds : List S) (ncpus : Nat) (order : List Nat) (hne : ncpus ≤ 1 ∨ mrs ≠ [])
    (ho : ncpus ≤ 1 ∨ order.Perm (List.range (chunkCount mrs.length (chunkSize mrs.length ncpus)))) :
    (∀ table, getMeltArr f mrs temps seeds ncpus order = .ok table ↔
      meltArrSeq f mrs temps seeds = .ok table) := by
  intro table
  unfold getMeltArr
  by_cases h1 : ncpus ≤ 1
  · rw [if_pos h1]
  · rw [if_neg h1]
    have hne' := hne.resolve_left h1
    have ho' := ho.resolve_left h1
    cases hq : meltArrSeq f mrs temps seeds with
    | ok t =>
      rw [C65_pool_eq_sequential f mrs temps seeds hne' t hq ncpus order ho']
      simp only [bind, Except.bind, stacked_some]
    | error e =>
      obtain ⟨e', he⟩ := (C65_errors_agree f mrs temps seeds hne' ncpus order ho').1 ⟨e, hq⟩
      rw [he]
      simp [bind, Except.bind]

omit [IsStrictOrderedRing K] [FloorRing K] [LinearOrder K] in
theorem sum_range_list (n : Nat) (x : Nat → K) :
    ((List.range n).map x).sum = ∑ s ∈ Finset.range n, x s := by
  induction n with
  | zero => simp
  | succ n ih => rw [List.range_succ, List.map_append, List.sum_append, ih, Finset.sum_range_succ]; simp

omit [IsStrictOrderedRing K] [FloorRing K] in
theorem npMean_range (n : Nat) (hn : 0 < n) (x : Nat → K) :
    npMean ((List.range n).map x) = some ((∑ s ∈ Finset.range n, x s) / (n : K)) := by
  unfold npMean
  rw [if_neg (by simp; omega), sum_range_list]
  simp

omit [IsStrictOrderedRing K] [FloorRing K] in
theorem npVar_range (n : Nat) (hn : 0 < n) (x : Nat → K) :
    npVar ((List.range n).map x) = some ((∑ s ∈ Finset.range n,
      (x s - (∑ s ∈ Finset.range n, x s) / (n : K)) ^ 2) / (n : K)) := by
  unfold npVar
  rw [npMean_range n hn x]
  simp only [List.map_map]
  exact npMean_range n hn _

/-- A list obtained for the seeds `0, ..., n - 1`. -/
theorem mapM_range_inv {β : Type} [Inhabited β] (f : Nat → Except PyErr β) (n : Nat) (l : List β)
    (h : (List.range n).mapM f = .ok l) :
    ∃ x : Nat → β, (∀ s, s < n → f s = .ok (x s)) ∧ l = (List.range n).map x := by
  obtain ⟨hl, hi⟩ := mapM_ok_inv f _ l h
  refine ⟨fun s => l[s]?.getD default, ?_, ?_⟩
  · intro s hs
    obtain ⟨y, hy, hy'⟩ := hi s s (by simp [hs])
    simp only [hy, Option.getD_some]; exact hy'
  · apply List.ext_getElem?
    intro i
    by_cases hil : i < l.length
    · have : i < n := by rw [hl] at hil; simpa using hil
      simp [this, hil]
    · have : ¬ i < n := by rw [hl] at hil; simpa using hil
      rw [List.getElem?_eq_none (by omega), List.getElem?_eq_none (by simp; omega)]

/-- Numbers in `[0, 1]` deviate from their mean by at most 1/2 in the quadratic mean. -/
theorem var_le_quarter (n : Nat) (hn : 0 < n) (x : Nat → K) (hx : ∀ s, s < n → 0 ≤ x s ∧ x s ≤ 1) :
    (∑ s ∈ Finset.range n, (x s - (∑ s ∈ Finset.range n, x s) / (n : K)) ^ 2) / (n : K) ≤ 1 / 4 := by
  obtain ⟨m, hm⟩ : ∃ t, t = (∑ s ∈ Finset.range n, x s) / (n : K) := ⟨_, rfl⟩
  have hn' : (0 : K) < n := by exact_mod_cast hn
  rw [← hm, div_le_iff₀ hn']
  have hs : ∑ s ∈ Finset.range n, x s = m * n := by rw [hm]; field_simp
  have h1 : ∑ s ∈ Finset.range n, (x s - m) ^ 2 ≤
      ∑ s ∈ Finset.range n, ((1 - 2 * m) * x s + m ^ 2) := by
    apply Finset.sum_le_sum
    intro s hs'
    obtain ⟨a, b⟩ := hx s (Finset.mem_range.1 hs')
    nlinarith
  have h2 : ∑ s ∈ Finset.range n, ((1 - 2 * m) * x s + m ^ 2) = (1 - 2 * m) * (m * n) + n * m ^ 2 := by
    rw [Finset.sum_add_distrib, ← Finset.mul_sum, hs]; simp
  rw [h2] at h1
  nlinarith [mul_nonneg hn'.le (sq_nonneg (m - 1 / 2))]

/-! ## Six digits -/

theorem roundHalfEven_le (y : K) (z : Int) (h : y ≤ z) : roundHalfEven y ≤ z := by
  have := roundHalfEven_mono h
  rwa [roundHalfEven_int] at this

theorem roundHalfEven_nonneg (y : K) (h : 0 ≤ y) : 0 ≤ roundHalfEven y := by
  have := roundHalfEven_mono (x := ((0 : Int) : K)) (y := y) (by simpa using h)
  rwa [roundHalfEven_int] at this

theorem log10_spec (x : K) (hx : x ≠ 0) :
    (10 : K) ^ Int.log 10 |x| ≤ |x| ∧ |x| < 10 ^ (Int.log 10 |x| + 1) := by
  have h1 := Int.zpow_log_le_self (b := 10) (r := |x|) (by norm_num) (abs_pos.2 hx)
  have h2 := Int.lt_zpow_succ_log_self (b := 10) (by norm_num) |x|
  exact ⟨by exact_mod_cast h1, by exact_mod_cast h2⟩

/-- Six digits: the relative error is at most five millionths. -/
theorem fmtG_near (x : K) : |fmtG x - x| ≤ 5 / 10 ^ 6 * |x| := by
  unfold fmtG
  by_cases hx : x = 0
  · simp [hx]
  · rw [if_neg hx]
    simp only []
    obtain ⟨h1, -⟩ := log10_spec x hx
    obtain ⟨e, he⟩ : ∃ t, t = Int.log 10 |x| := ⟨_, rfl⟩
    rw [← he] at h1 ⊢
    have hp : (0 : K) < 10 ^ (5 - e) := zpow_pos (by norm_num) _
    have hn := roundHalfEven_close (x * 10 ^ (5 - e))
    have e1 : (roundHalfEven (x * 10 ^ (5 - e)) : K) / 10 ^ (5 - e) - x =
        ((roundHalfEven (x * 10 ^ (5 - e)) : K) - x * 10 ^ (5 - e)) / 10 ^ (5 - e) := by
      field_simp
    rw [e1, abs_div, abs_of_pos hp, div_le_iff₀ hp]
    refine le_trans hn ?_
    have e2 : (10 : K) ^ e * 10 ^ (5 - e) = 10 ^ (5 : Int) := by
      rw [← zpow_add₀ (by norm_num)]; congr 1; omega
    have : (10 : K) ^ (5 : Int) ≤ |x| * 10 ^ (5 - e) := by
      rw [← e2]; exact mul_le_mul_of_nonneg_right h1 hp.le
    norm_num at this
    nlinarith

theorem fmtG_nonneg (x : K) (h : 0 ≤ x) : 0 ≤ fmtG x := by
  unfold fmtG
  split
  · exact le_rfl
  · simp only []
    have : 0 ≤ roundHalfEven (x * 10 ^ (5 - Int.log 10 |x|)) :=
      roundHalfEven_nonneg _ (mul_nonneg h (zpow_nonneg (by norm_num) _))
    exact div_nonneg (by exact_mod_cast this) (zpow_nonneg (by norm_num) _)

theorem fmtG_le_one (x : K) (h0 : 0 ≤ x) (h : x ≤ 1) : fmtG x ≤ 1 := by
  unfold fmtG
  by_cases hx : x = 0
  · simp [hx]
  · rw [if_neg hx]
    simp only []
    obtain ⟨h1, h2⟩ := log10_spec x hx
    obtain ⟨e, he⟩ : ∃ t, t = Int.log 10 |x| := ⟨_, rfl⟩
    rw [← he] at h1 h2 ⊢
    rw [abs_of_nonneg h0] at h1 h2
    have he0 : e ≤ 0 := by
      by_contra hc
      have : (10 : K) ^ (1 : Int) ≤ 10 ^ e := zpow_le_zpow_right₀ (by norm_num) (by omega)
      norm_num at this
      linarith
    have hp : (0 : K) < 10 ^ (5 - e) := zpow_pos (by norm_num) _
    rw [div_le_one hp]
    obtain ⟨k, hk⟩ : ∃ k : Nat, 5 - e = (k : Int) := ⟨(5 - e).toNat, by omega⟩
    rw [hk, zpow_natCast]
    have := roundHalfEven_le (x * 10 ^ k) (10 ^ k) (by
      push_cast
      have : (0 : K) ≤ 10 ^ k := by positivity
      nlinarith)
    exact_mod_cast this

/-- Whole numbers of at most six digits are kept. -/
theorem fmtG_nat (n : Nat) (h : n < 10 ^ 6) : fmtG (n : K) = n := by
  unfold fmtG
  by_cases hn : n = 0
  · simp [hn]
  · have hx : (n : K) ≠ 0 := by exact_mod_cast hn
    rw [if_neg hx]
    simp only []
    obtain ⟨h1, h2⟩ := log10_spec (n : K) hx
    obtain ⟨e, he⟩ : ∃ t, t = Int.log 10 |(n : K)| := ⟨_, rfl⟩
    rw [← he] at h1 h2 ⊢
    rw [abs_of_nonneg (by positivity)] at h1 h2
    have he5 : e ≤ 5 := by
      by_contra hc
      have : (10 : K) ^ (6 : Int) ≤ 10 ^ e := zpow_le_zpow_right₀ (by norm_num) (by omega)
      have h3 : (10 : K) ^ (6 : Int) ≤ n := le_trans this h1
      have : ((10 ^ 6 : Nat) : K) ≤ n := by push_cast; exact_mod_cast h3
      have : 10 ^ 6 ≤ n := by exact_mod_cast this
      omega
    obtain ⟨k, hk⟩ : ∃ k : Nat, 5 - e = (k : Int) := ⟨(5 - e).toNat, by omega⟩
    rw [hk, zpow_natCast]
    have hr := roundHalfEven_int (K := K) ((n : Int) * 10 ^ k)
    push_cast at hr
    rw [hr]
    push_cast
    field_simp

end MoonPIES
