import Verif.Spec.Sensitive
import Verif.Spec.CannonRun
import Verif.Lemmas.LayDown
import Verif.Props.CannonRun
import Verif.Lemmas.Products
import Mathlib.Algebra.Order.Group.MinMax
import Mathlib.Tactic.Linarith
import Mathlib.Tactic.Ring

/-!
# Lemmas on how far apart two columns are
-/

namespace MoonPIES

open Spec

section
set_option linter.unusedSectionVars false
variable {K : Type} [Field K] [LinearOrder K] [IsStrictOrderedRing K]

theorem gap_nonneg : ∀ a b : List K, 0 ≤ gap a b
  | [], _ => le_refl _
  | _ :: _, [] => le_refl _
  | x :: xs, y :: ys => add_nonneg (abs_nonneg _) (gap_nonneg xs ys)

theorem gap_self : ∀ a : List K, gap a a = 0
  | [] => rfl
  | x :: xs => by rw [gap, sub_self, abs_zero, gap_self xs, add_zero]

theorem gap_append : ∀ (a a' b b' : List K), a.length = a'.length →
    gap (a ++ b) (a' ++ b') = gap a a' + gap b b'
  | [], [], _, _, _ => (zero_add _).symm
  | [], _ :: _, _, _, h => by simp at h
  | _ :: _, [], _, _, h => by simp at h
  | x :: xs, y :: ys, b, b', h => by
    rw [List.cons_append, List.cons_append, gap, gap, gap_append xs ys b b' (by simpa using h), add_assoc]

theorem gap_reverse : ∀ (a a' : List K), a.length = a'.length → gap a.reverse a'.reverse = gap a a'
  | [], [], _ => rfl
  | [], _ :: _, h => by simp at h
  | _ :: _, [], h => by simp at h
  | x :: xs, y :: ys, h => by
    have h' : xs.length = ys.length := by simpa using h
    rw [List.reverse_cons, List.reverse_cons, gap_append _ _ _ _ (by simpa using h'), gap_reverse xs ys h']
    have h1 : gap [x] [y] = |x - y| := by simp [gap]
    have h2 : gap (x :: xs) (y :: ys) = |x - y| + gap xs ys := rfl
    rw [h1, h2, add_comm]

theorem gap_take_drop (n : Nat) (a a' : List K) (h : a.length = a'.length) :
    gap a a' = gap (a.take n) (a'.take n) + gap (a.drop n) (a'.drop n) := by
  conv_lhs => rw [← List.take_append_drop n a, ← List.take_append_drop n a']
  exact gap_append _ _ _ _ (by rw [List.length_take, List.length_take, h])

theorem gap_take_le (n : Nat) (a a' : List K) (h : a.length = a'.length) :
    gap (a.take n) (a'.take n) ≤ gap a a' := by
  rw [gap_take_drop n a a' h]
  linarith [gap_nonneg (a.drop n) (a'.drop n)]

theorem gap_sum : ∀ (a a' : List K), a.length = a'.length → |a.sum - a'.sum| ≤ gap a a'
  | [], [], _ => by simp [gap]
  | [], _ :: _, h => by simp at h
  | _ :: _, [], h => by simp at h
  | x :: xs, y :: ys, h => by
    have := gap_sum xs ys (by simpa using h)
    rw [List.sum_cons, List.sum_cons, gap, add_sub_add_comm]
    exact (abs_add_le _ _).trans (by linarith)

/-- Working a pile, never stopping: `b` metres are left to work. -/
def work (eff : K) : K → List (K × K) → List K
  | _, [] => []
  | b, (x, e) :: l =>
    (x - min (x * eff) (max (b - e) 0)) :: work eff (b - e - (x - min (x * eff) (max (b - e) 0))) l

theorem work_done (eff : K) (h0 : 0 ≤ eff) : ∀ (l : List (K × K)) (b : K), b ≤ 0 →
    (∀ p ∈ l, 0 ≤ p.1 ∧ 0 ≤ p.2) → work eff b l = l.map (·.1)
  | [], _, _, _ => rfl
  | (x, e) :: l, b, hb, hl => by
    obtain ⟨hx, he⟩ := hl (x, e) (by simp)
    simp only [] at hx he
    have hm : min (x * eff) (max (b - e) 0) = 0 := by
      rw [max_eq_right (by linarith), min_eq_right (mul_nonneg hx h0)]
    rw [work, hm, sub_zero, work_done eff h0 l _ (by linarith) (fun p hp => hl p (by simp [hp])),
      List.map_cons]

theorem work_sink (depth eff : K) (h0 : 0 ≤ eff) : ∀ (l : List (K × K)) (d : K),
    (∀ p ∈ l, 0 ≤ p.1 ∧ 0 ≤ p.2) → (sink depth eff d l).map (·.1) = work eff (depth - d) l
  | [], _, _ => rfl
  | (x, e) :: l, d, hl => by
    obtain ⟨hx, he⟩ := hl (x, e) (by simp)
    simp only [] at hx he
    have hl' : ∀ p ∈ l, 0 ≤ p.1 ∧ 0 ≤ p.2 := fun p hp => hl p (by simp [hp])
    rw [sink]
    split
    · rename_i h
      have hm : max (depth - d - e) 0 = depth - (d + e) := by
        rw [max_eq_left (by linarith [h.2])]; ring
      rw [work, hm, List.map_cons, work_sink depth eff h0 l _ hl']
      congr 2
      ring
    · rename_i h
      have hb : depth - d - e ≤ 0 := by
        by_contra hc
        exact h ⟨by linarith, by linarith⟩
      have hm : min (x * eff) (max (depth - d - e) 0) = 0 := by
        rw [max_eq_right hb, min_eq_right (mul_nonneg hx h0)]
      rw [work, hm, sub_zero, work_done eff h0 l _ (by linarith) hl', List.map_cons]

theorem layer_gap (eff x x' b b' : K) (h0 : 0 ≤ eff) (h1 : eff ≤ 1) :
    |(x - min (x * eff) (max b 0)) - (x' - min (x' * eff) (max b' 0))| ≤ |x - x'| + |b - b'| := by
  have e : ∀ y c : K, y - min (y * eff) c = max (y * (1 - eff)) (y - c) := by
    intro y c
    rw [← max_sub_sub_left]
    congr 1
    ring
  rw [e, e]
  refine (abs_max_sub_max_le_max _ _ _ _).trans (max_le ?_ ?_)
  · rw [← sub_mul, abs_mul, abs_of_nonneg (a := 1 - eff) (by linarith)]
    have := mul_le_mul_of_nonneg_left (show 1 - eff ≤ 1 by linarith) (abs_nonneg (x - x'))
    linarith [abs_nonneg (b - b')]
  · have h2 : |max b 0 - max b' 0| ≤ |b - b'| := abs_max_sub_max_le_abs b b' 0
    have h3 : x - max b 0 - (x' - max b' 0) = (x - x') - (max b 0 - max b' 0) := by ring
    rw [h3]
    exact (abs_sub _ _).trans (by linarith)

theorem work_gap (eff : K) (h0 : 0 ≤ eff) (h1 : eff ≤ 1) : ∀ (l l' : List (K × K)) (b b' : K),
    l.length = l'.length →
    gap (work eff b l) (work eff b' l') ≤
      (2 ^ l.length - 1) * (|b - b'| + gap (l.map (·.1)) (l'.map (·.1)) + gap (l.map (·.2)) (l'.map (·.2))) +
        gap (l.map (·.1)) (l'.map (·.1))
  | [], [], _, _, _ => by simp [work, gap]
  | [], _ :: _, _, _, h => by simp at h
  | _ :: _, [], _, _, h => by simp at h
  | (x, e) :: l, (x', e') :: l', b, b', h => by
    have ih := work_gap eff h0 h1 l l' (b - e - (x - min (x * eff) (max (b - e) 0)))
      (b' - e' - (x' - min (x' * eff) (max (b' - e') 0))) (by simpa using h)
    have hy := layer_gap eff x x' (b - e) (b' - e') h0 h1
    rw [work, work, gap, List.map_cons, List.map_cons, List.map_cons, List.map_cons, gap, gap, List.length_cons,
      pow_succ]
    have g1 := gap_nonneg (l.map (·.1)) (l'.map (·.1))
    have g2 := gap_nonneg (l.map (·.2)) (l'.map (·.2))
    generalize gap (l.map (·.1)) (l'.map (·.1)) = X at *
    generalize gap (l.map (·.2)) (l'.map (·.2)) = E at *
    generalize hyy : x - min (x * eff) (max (b - e) 0) = y at *
    generalize hyy' : x' - min (x' * eff) (max (b' - e') 0) = y' at *
    have hP : (1 : K) ≤ 2 ^ l.length := one_le_pow₀ (by norm_num)
    generalize (2 : K) ^ l.length = P at *
    have hbe : |b - e - (b' - e')| ≤ |b - b'| + |e - e'| := by
      rw [show b - e - (b' - e') = (b - b') - (e - e') by ring]
      exact abs_sub _ _
    have hb : |b - e - y - (b' - e' - y')| ≤ |b - e - (b' - e')| + |y - y'| := by
      rw [show b - e - y - (b' - e' - y') = (b - e - (b' - e')) - (y - y') by ring]
      exact abs_sub _ _
    have n1 := abs_nonneg (x - x')
    have n2 := abs_nonneg (b - b')
    have n3 := abs_nonneg (e - e')
    simp only [] at *
    have hy2 : |y - y'| ≤ |x - x'| + |b - b'| + |e - e'| := by linarith
    have hb2 : |b - e - y - (b' - e' - y')| ≤ 2 * |b - b'| + 2 * |e - e'| + |x - x'| := by linarith
    have hmul := mul_le_mul_of_nonneg_left
      (show |b - e - y - (b' - e' - y')| + X + E ≤ 2 * |b - b'| + 2 * |e - e'| + |x - x'| + X + E by linarith)
      (show 0 ≤ P - 1 by linarith)
    have hlast : 0 ≤ (P - 1) * (|x - x'| + X + E) := mul_nonneg (by linarith) (by linarith)
    nlinarith [mul_nonneg (show (0 : K) ≤ P - 1 by linarith) n1]

theorem pileOf_fst {ice ej : List K} {n : Nat} (hi : n ≤ ice.length) (he : n ≤ ej.length) :
    (pileOf ice ej n).map (·.1) = (ice.take n).reverse := by
  unfold pileOf
  rw [List.map_reverse]
  congr 1
  exact List.map_fst_zip (by rw [List.length_take, List.length_take]; omega)

theorem pileOf_mem {ice ej : List K} {n : Nat} (hi : ∀ x ∈ ice, 0 ≤ x) (he : ∀ x ∈ ej, 0 ≤ x) :
    ∀ p ∈ pileOf ice ej n, 0 ≤ p.1 ∧ 0 ≤ p.2 := by
  intro p hp
  obtain ⟨a, b⟩ := p
  have hm := List.of_mem_zip (List.mem_reverse.1 hp)
  exact ⟨hi _ (List.mem_of_mem_take hm.1), he _ (List.mem_of_mem_take hm.2)⟩

theorem work_length (eff : K) : ∀ (l : List (K × K)) (b : K), (work eff b l).length = l.length
  | [], _ => rfl
  | (x, e) :: l, b => by rw [work, List.length_cons, List.length_cons, work_length eff l]

theorem eat_gap : ∀ (l l' : List K) (ed ed' : K), l.length = l'.length → (∀ x ∈ l, 0 ≤ x) → (∀ x ∈ l', 0 ≤ x) →
    0 ≤ ed → 0 ≤ ed' → gap (eat ed l) (eat ed' l') ≤ gap l l' + |ed - ed'|
  | [], [], _, _, _, _, _, _, _ => by simp [eat, gap]
  | [], _ :: _, _, _, h, _, _, _, _ => by simp at h
  | _ :: _, [], _, _, h, _, _, _, _ => by simp at h
  | x :: xs, y :: ys, ed, ed', h, hx, hy, he, he' => by
    have h' : xs.length = ys.length := by simpa using h
    have hx' : ∀ z ∈ xs, 0 ≤ z := fun z hz => hx z (by simp [hz])
    have hy' : ∀ z ∈ ys, 0 ≤ z := fun z hz => hy z (by simp [hz])
    have k1 := le_abs_self (x - y)
    have k2 := neg_abs_le (x - y)
    have k3 := le_abs_self (ed - ed')
    have k4 := neg_abs_le (ed - ed')
    rw [eat, eat]
    split
    · rename_i c
      split
      · rw [gap, gap, show x - ed - (y - ed') = (x - y) - (ed - ed') by ring]
        linarith [abs_sub (x - y) (ed - ed')]
      · rename_i c'
        rw [not_le] at c'
        have ih := eat_gap xs ys 0 (ed' - y) h' hx' hy' (le_refl _) (by linarith)
        rw [eat_zero xs hx', zero_sub, abs_neg, abs_of_nonneg (a := ed' - y) (by linarith)] at ih
        rw [gap, gap, sub_zero, abs_of_nonneg (a := x - ed) (by linarith)]
        linarith
    · rename_i c
      rw [not_le] at c
      split
      · rename_i c'
        have ih := eat_gap xs ys (ed - x) 0 h' hx' hy' (by linarith) (le_refl _)
        rw [eat_zero ys hy', sub_zero, abs_of_nonneg (a := ed - x) (by linarith)] at ih
        rw [gap, gap, zero_sub, abs_neg, abs_of_nonneg (a := y - ed') (by linarith)]
        linarith
      · rename_i c'
        rw [not_le] at c'
        have ih := eat_gap xs ys (ed - x) (ed' - y) h' hx' hy' (by linarith) (by linarith)
        rw [gap, gap, sub_zero, abs_zero]
        rw [show ed - x - (ed' - y) = (ed - ed') - (x - y) by ring] at ih
        linarith [abs_sub (ed - ed') (x - y)]

theorem eat_length : ∀ (l : List K) (ed : K), (eat ed l).length = l.length
  | [], _ => rfl
  | x :: xs, ed => by
    rw [eat]
    split
    · rfl
    · rw [List.length_cons, List.length_cons, eat_length xs]

theorem pile_gap (shield ed ed' : K) (he : 0 ≤ ed) (he' : 0 ≤ ed') : ∀ (r : List (K × K)) (st st' : List K),
    st.length = st'.length → (∀ x ∈ st, 0 ≤ x) → (∀ x ∈ st', 0 ≤ x) → (∀ p ∈ r, 0 ≤ p.1) →
    gap (pile shield ed st r) (pile shield ed' st' r) ≤ gap st st' + r.length * |ed - ed'| ∧
      (pile shield ed st r).length = (pile shield ed' st' r).length
  | [], st, st', hl, _, _, _ => by
    rw [pile, pile]
    exact ⟨by simp, hl⟩
  | (y, e) :: r, st, st', hl, h, h', hr => by
    have hy : 0 ≤ y := hr (y, e) (by simp)
    have hr' : ∀ p ∈ r, 0 ≤ p.1 := fun p hp => hr p (by simp [hp])
    have hc : ∀ x ∈ y :: st, 0 ≤ x := by
      intro x hx
      rcases List.mem_cons.1 hx with rfl | hx
      · exact hy
      · exact h x hx
    have hc' : ∀ x ∈ y :: st', 0 ≤ x := by
      intro x hx
      rcases List.mem_cons.1 hx with rfl | hx
      · exact hy
      · exact h' x hx
    have hg : gap (y :: st) (y :: st') = gap st st' := by rw [gap, sub_self, abs_zero, zero_add]
    have hn := abs_nonneg (ed - ed')
    rw [pile, pile, List.length_cons, Nat.cast_add, Nat.cast_one]
    split
    · have ih := pile_gap shield ed ed' he he' r (eat ed (y :: st)) (eat ed' (y :: st'))
        (by rw [eat_length, eat_length, List.length_cons, List.length_cons, hl])
        (eat_nonneg _ _ hc) (eat_nonneg _ _ hc') hr'
      have := eat_gap (y :: st) (y :: st') ed ed' (by simp [hl]) hc hc' he he'
      exact ⟨by rw [hg] at this; linarith [ih.1], ih.2⟩
    · have ih := pile_gap shield ed ed' he he' r (y :: st) (y :: st') (by simp [hl]) hc hc' hr'
      exact ⟨by rw [hg] at ih; linarith [ih.1], ih.2⟩

/-- Working layers that double in thickness upwards: every layer passes twice the change on. -/
theorem doubling_work (N : Nat) : ∀ (k : Nat) (b β : K), k ≤ N → b = 2 ^ k + β → -2 ≤ 2 ^ k * β → 2 ^ k * β ≤ 2 →
    work 1 b (pileOf ((List.range N).map fun k => (3 : K) * 2 ^ k) (List.replicate N 0) k) =
      ((List.range k).map fun j => 2 ^ j - 2 ^ (k - 1 - j) * β).reverse := by
  intro k
  induction k with
  | zero => intro b β _ _ _ _; simp [pileOf, work]
  | succ k ih =>
    intro b β hk hb hβ hs
    have hkk : k < N := by omega
    have hP : (1 : K) ≤ 2 ^ k := one_le_pow₀ (by norm_num)
    rw [pow_succ] at hβ hs
    have hPβ : β ≤ 2 ^ k := by
      by_contra h
      rw [not_le] at h
      nlinarith
    have hPβ' : -(2 ^ k) ≤ β := by
      by_contra h
      rw [not_le] at h
      nlinarith
    rw [pileOf_succ (x := (3 : K) * 2 ^ k) (e := 0)
      (by rw [List.getElem?_map, List.getElem?_range hkk]; rfl)
      (by rw [List.getElem?_replicate, if_pos hkk]), work]
    have hm : min ((3 : K) * 2 ^ k * 1) (max (b - 0) 0) = 2 ^ k * 2 + β := by
      rw [hb, pow_succ, sub_zero, max_eq_left (by linarith), min_eq_right (by linarith)]
    rw [hm, ih _ (2 * β) (by omega) (by rw [hb, pow_succ]; ring) (by linarith) (by linarith)]
    rw [List.range_succ, List.map_append, List.reverse_append, List.map_singleton, List.reverse_singleton,
      List.singleton_append]
    congr 1
    · rw [Nat.add_sub_cancel, Nat.sub_self, pow_zero]; ring
    · congr 1
      apply List.map_congr_left
      intro j hj
      have hjk := List.mem_range.1 hj
      rw [Nat.add_sub_cancel, show k - j = k - 1 - j + 1 by omega, pow_succ]
      ring

/-- Two piles that get different ice under the same ejecta. -/
theorem pile_supply (shield ed : K) (he : 0 ≤ ed) : ∀ (ys ys' es : List K) (st st' : List K),
    ys.length = ys'.length → st.length = st'.length → (∀ x ∈ st, 0 ≤ x) → (∀ x ∈ st', 0 ≤ x) →
    (∀ x ∈ ys, 0 ≤ x) → (∀ x ∈ ys', 0 ≤ x) →
    gap (pile shield ed st (ys.zip es)) (pile shield ed st' (ys'.zip es)) ≤ gap st st' + gap ys ys' ∧
      (pile shield ed st (ys.zip es)).length = (pile shield ed st' (ys'.zip es)).length
  | [], [], es, st, st', _, hl, _, _, _, _ => by
    rw [List.zip_nil_left, pile, pile]
    exact ⟨by simp [gap], hl⟩
  | [], _ :: _, _, _, _, h, _, _, _, _, _ => by simp at h
  | _ :: _, [], _, _, _, h, _, _, _, _, _ => by simp at h
  | y :: ys, y' :: ys', [], st, st', _, hl, _, _, _, _ => by
    rw [List.zip_nil_right, List.zip_nil_right, pile, pile]
    exact ⟨by linarith [gap_nonneg (y :: ys) (y' :: ys')], hl⟩
  | y :: ys, y' :: ys', e :: es, st, st', h, hl, h1, h1', h2, h2' => by
    have hc : ∀ x ∈ y :: st, 0 ≤ x := by
      intro x hx
      rcases List.mem_cons.1 hx with rfl | hx
      · exact h2 _ (by simp)
      · exact h1 x hx
    have hc' : ∀ x ∈ y' :: st', 0 ≤ x := by
      intro x hx
      rcases List.mem_cons.1 hx with rfl | hx
      · exact h2' _ (by simp)
      · exact h1' x hx
    have hg : gap (y :: st) (y' :: st') + gap ys ys' = gap st st' + gap (y :: ys) (y' :: ys') := by
      rw [gap, gap]; ring
    have hy : ∀ x ∈ ys, 0 ≤ x := fun x hx => h2 x (by simp [hx])
    have hy' : ∀ x ∈ ys', 0 ≤ x := fun x hx => h2' x (by simp [hx])
    rw [List.zip_cons_cons, List.zip_cons_cons, pile, pile]
    split
    · have ih := pile_supply shield ed he ys ys' es (eat ed (y :: st)) (eat ed (y' :: st')) (by simpa using h)
        (by rw [eat_length, eat_length, List.length_cons, List.length_cons, hl])
        (eat_nonneg _ _ hc) (eat_nonneg _ _ hc') hy hy'
      have := eat_gap (y :: st) (y' :: st') ed ed (by simp [hl]) hc hc' he he
      rw [sub_self, abs_zero, add_zero] at this
      exact ⟨by linarith [ih.1], ih.2⟩
    · have ih := pile_supply shield ed he ys ys' es (y :: st) (y' :: st') (by simpa using h) (by simp [hl])
        hc hc' hy hy'
      exact ⟨by linarith [ih.1], ih.2⟩

theorem gap_of_le : ∀ (a a' : List K), List.Forall₂ (· ≤ ·) a a' → gap a a' = a'.sum - a.sum
  | [], [], _ => by simp [gap]
  | x :: xs, y :: ys, .cons h h' => by
    rw [gap, gap_of_le xs ys h', List.sum_cons, List.sum_cons, abs_of_nonpos (by linarith)]
    ring

end

/-! ## The rate of erosion has no part in the supply -/

variable {σ : Type}

/-- A configuration with another `ice_erosion_rate`. -/
def withRate (c : RunCfg) (rate : ℝ) : RunCfg := { c with ice_erosion_rate := rate }

theorem stochLoop_rate (g : Gen σ) (c : RunCfg) (x : ℝ) (regime : String) (diams prob : List ℝ) :
    ∀ (counts : List Int) (s : σ),
    stochLoop g (withRate c x) regime diams prob counts s = stochLoop g c regime diams prob counts s
  | [], _ => rfl
  | n :: rest, s => by
    have e : (fun t => stochLoop g (withRate c x) regime diams prob rest t) =
        fun t => stochLoop g c regime diams prob rest t :=
      funext fun t => stochLoop_rate g c x regime diams prob rest t
    unfold stochLoop
    simp only [show ∀ t, stochLoop g (withRate c x) regime diams prob rest t =
        stochLoop g c regime diams prob rest t from congrFun e]
    rfl

theorem impactIce_rate (g : Gen σ) (c : RunCfg) (x : ℝ) (df : CraterTable) (time : List ℝ)
    (s : σ) : impactIce g (withRate c x) df time s = impactIce g c df time s := by
  have e : ∀ r t, iceStochastic g (withRate c x) time r t = iceStochastic g c time r t := by
    intro r t
    unfold iceStochastic
    simp only [stochLoop_rate]
    rfl
  have n : nonBasinIce g (withRate c x) time s = nonBasinIce g c time s := by
    unfold nonBasinIce
    simp only [e]
    rfl
  unfold impactIce
  rw [n]
  rfl

theorem iceCols_rate (g : Gen σ) (c : RunCfg) (x : ℝ) (d : RunData) (df : CraterTable) (time : List ℝ) (s : σ) :
    iceCols g (withRate c x) d df time s = iceCols g c d df time s := by
  refine iceCols_same_parts g (c := c) (c' := withRate c x) d df time (fun t => ?_) (fun _ _ _ => rfl) rfl (fun _ _ => rfl) s
  have h1 := impactIce_rate g c x df time t
  have h2 : ∀ t, impactIceComet g (withRate c x) df time t = impactIceComet g c df time t :=
    fun t => impactIce_rate g c.comet x df time t
  unfold polarIce
  simp only [h1, h2]
  rfl

end MoonPIES
