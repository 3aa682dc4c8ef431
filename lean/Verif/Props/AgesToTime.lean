import Mathlib.Algebra.Order.Ring.Rat
import Mathlib.Algebra.BigOperators.Group.List.Basic
import Mathlib.Algebra.Order.Group.Abs
import Mathlib.Data.List.Perm.Basic
import Mathlib.Data.List.Nodup
import Mathlib.Tactic.Linarith
import Verif.Model.AgesToTime
import Verif.Spec.AgesToTime

/-!
# C14-C18: binning craters into timesteps (`ages2time`, `get_ejecta_thickness_time`)
-/

namespace MoonPIES

open Spec

set_option linter.unusedSectionVars false

variable {K : Type} [Field K] [LinearOrder K]

/-! ## Helper lemmas -/

theorem argminFrom_spec (l : List K) : ∀ (pre : List K) (best : Nat) (bv : K),
    pre[best]? = some bv → (∀ (j : Nat) x, pre[j]? = some x → bv ≤ x) →
    (∀ (j : Nat) x, j < best → pre[j]? = some x → bv < x) →
    ∃ v, (pre ++ l)[argminFrom best bv pre.length l]? = some v ∧
      (∀ (j : Nat) x, (pre ++ l)[j]? = some x → v ≤ x) ∧
      (∀ j x, j < argminFrom best bv pre.length l → (pre ++ l)[j]? = some x → v < x) := by
  induction l with
  | nil => intro pre best bv h1 h2 h3; simpa using ⟨bv, h1, h2, h3⟩
  | cons x xs ih =>
    intro pre best bv h1 h2 h3
    have hb : best < pre.length := (List.getElem?_eq_some_iff.1 h1).1
    rw [argminFrom]
    have e : pre ++ x :: xs = (pre ++ [x]) ++ xs := by simp
    have elen : (pre ++ [x]).length = pre.length + 1 := by simp
    rw [e, ← elen]
    have hcases : ∀ (j : Nat) y, (pre ++ [x])[j]? = some y → pre[j]? = some y ∨ (j = pre.length ∧ y = x) := by
      intro j y hy
      by_cases hj : j < pre.length
      · left; rwa [List.getElem?_append_left hj] at hy
      · right
        rw [List.getElem?_append_right (by omega)] at hy
        have hj0 : j - pre.length = 0 := by
          by_contra hne
          rw [List.getElem?_eq_none (by simp; omega)] at hy
          cases hy
        rw [hj0] at hy
        simp at hy
        exact ⟨by omega, hy.symm⟩
    split
    · rename_i hlt
      apply ih
      · rw [List.getElem?_append_right (by omega)]; simp
      · intro j y hy
        rcases hcases j y hy with hy | ⟨_, rfl⟩
        · exact hlt.le.trans (h2 j y hy)
        · exact le_rfl
      · intro j y hj hy
        rcases hcases j y hy with hy | ⟨hj', _⟩
        · exact hlt.trans_le (h2 j y hy)
        · omega
    · rename_i hge
      apply ih
      · rw [List.getElem?_append_left hb]; exact h1
      · intro j y hy
        rcases hcases j y hy with hy | ⟨_, rfl⟩
        · exact h2 j y hy
        · exact not_lt.1 hge
      · intro j y hj hy
        rcases hcases j y hy with hy | ⟨hj', _⟩
        · exact h3 j y hj hy
        · omega

theorem argmin_spec {l : List K} {i : Nat} (h : argmin l = .ok i) :
    ∃ v, l[i]? = some v ∧ (∀ (j : Nat) x, l[j]? = some x → v ≤ x) ∧
      ∀ j x, j < i → l[j]? = some x → v < x := by
  cases l with
  | nil => cases h
  | cons x xs =>
    rw [argmin] at h
    have h := argminFrom_spec xs [x] 0 x (by simp) (by
      intro j y hy; cases j with
      | zero => simp at hy; rw [hy]
      | succ j => simp at hy) (by intro j y hj; omega)
    rename_i h'
    cases h'
    exact h

theorem argmin_total {l : List K} (h : l ≠ []) : ∃ i, argmin l = .ok i := by
  cases l with
  | nil => exact absurd rfl h
  | cons x xs => exact ⟨_, rfl⟩

theorem nearest_of_argmin {time : List K} {a : K} {i : Nat}
    (h : argmin (time.map (fun t => |t - a|)) = .ok i) : Nearest time a i := by
  obtain ⟨v, h1, h2, h3⟩ := argmin_spec h
  rw [List.getElem?_map] at h1
  cases ht : time[i]? with
  | none => rw [ht] at h1; cases h1
  | some t =>
    rw [ht] at h1
    simp at h1
    subst h1
    refine ⟨t, ht, ?_, ?_⟩
    · intro j t' hj
      exact h2 j _ (by rw [List.getElem?_map, hj]; rfl)
    · intro j t' hlt hj
      exact h3 j _ hlt (by rw [List.getElem?_map, hj]; rfl)

theorem nearest_unique {time : List K} {a : K} {i j : Nat} (hi : Nearest time a i)
    (hj : Nearest time a j) : i = j := by
  obtain ⟨t, h1, h2, h3⟩ := hi
  obtain ⟨t', g1, g2, g3⟩ := hj
  rcases Nat.lt_trichotomy i j with h | h | h
  · exact absurd (g3 i t h h1) (not_lt.2 (h2 j t' g1))
  · exact h
  · exact absurd (h3 j t' h g1) (not_lt.2 (g2 i t h1))

theorem foldl_min_spec (l : List K) : ∀ x : K,
    (l.foldl min x ∈ x :: l) ∧ ∀ t ∈ x :: l, l.foldl min x ≤ t := by
  induction l with
  | nil => intro x; simp
  | cons y l ih =>
    intro x
    obtain ⟨h1, h2⟩ := ih (min x y)
    simp only [List.foldl_cons]
    constructor
    · rcases List.mem_cons.1 h1 with h1 | h1
      · rw [h1]; rcases min_choice x y with h | h <;> rw [h] <;> simp
      · simp [h1]
    · intro t ht
      have hm := h2 (min x y) (by simp)
      rcases List.mem_cons.1 ht with rfl | ht
      · exact hm.trans (min_le_left _ _)
      · rcases List.mem_cons.1 ht with rfl | ht
        · exact hm.trans (min_le_right _ _)
        · exact h2 t (by simp [ht])

theorem foldl_max_spec (l : List K) : ∀ x : K,
    (l.foldl max x ∈ x :: l) ∧ ∀ t ∈ x :: l, t ≤ l.foldl max x := by
  induction l with
  | nil => intro x; simp
  | cons y l ih =>
    intro x
    obtain ⟨h1, h2⟩ := ih (max x y)
    simp only [List.foldl_cons]
    constructor
    · rcases List.mem_cons.1 h1 with h1 | h1
      · rw [h1]; rcases max_choice x y with h | h <;> rw [h] <;> simp
      · simp [h1]
    · intro t ht
      have hm := h2 (max x y) (by simp)
      rcases List.mem_cons.1 ht with rfl | ht
      · exact (le_max_left _ _).trans hm
      · rcases List.mem_cons.1 ht with rfl | ht
        · exact (le_max_right _ _).trans hm
        · exact h2 t (by simp [ht])

theorem minmaxRtol_inRange {tol : K} {time : List K} {lo hi : K}
    (h : minmaxRtol tol time = .ok (lo, hi)) (a : K) :
    InRange tol time a ↔ a ≥ lo ∧ a ≤ hi := by
  cases time with
  | nil => cases h
  | cons x xs =>
    simp only [minmaxRtol, Except.ok.injEq, Prod.mk.injEq] at h
    obtain ⟨rfl, rfl⟩ := h
    obtain ⟨a1, a2⟩ := foldl_min_spec xs x
    obtain ⟨b1, b2⟩ := foldl_max_spec xs x
    constructor
    · rintro ⟨⟨lo, hl, hl', hlo⟩, ⟨hi, hh, hh', hhi⟩⟩
      have e1 : lo = xs.foldl min x := le_antisymm (hl' _ a1) (a2 _ hl)
      have e2 : hi = xs.foldl max x := le_antisymm (b2 _ hh) (hh' _ b1)
      subst e1 e2
      exact ⟨hlo, hhi⟩
    · rintro ⟨h1, h2⟩
      exact ⟨⟨_, a1, a2, h1⟩, ⟨_, b1, b2, h2⟩⟩

theorem timeIdx_total {V : Type} {time : List K} (h : time ≠ []) (items : List (K × V)) :
    ∃ idx, timeIdx time items = .ok idx := by
  induction items with
  | nil => exact ⟨[], rfl⟩
  | cons p rest ih =>
    obtain ⟨a, v⟩ := p
    obtain ⟨i, hi⟩ := argmin_total (l := time.map (fun t => |t - a|)) (by simpa using h)
    obtain ⟨tl, htl⟩ := ih
    refine ⟨(i, v) :: tl, ?_⟩
    rw [timeIdx, hi, htl]; rfl

theorem timeIdx_spec {V : Type} {time : List K} : ∀ {items : List (K × V)} {idx : List (Nat × V)},
    timeIdx time items = .ok idx →
    List.Forall₂ (fun p q => Nearest time p.1 q.1 ∧ q.2 = p.2) items idx := by
  intro items
  induction items with
  | nil => intro idx h; cases h; exact .nil
  | cons p rest ih =>
    intro idx h
    obtain ⟨a, v⟩ := p
    rw [timeIdx] at h
    cases h1 : argmin (time.map (fun t => |t - a|)) with
    | error e => rw [h1] at h; cases h
    | ok i =>
      rw [h1] at h
      cases h2 : timeIdx time rest with
      | error e => rw [h2] at h; cases h
      | ok tl =>
        rw [h2] at h
        cases h
        exact .cons ⟨nearest_of_argmin h1, rfl⟩ (ih h2)

open Classical in
/-- The items that belong to index `i`: in range and nearest to it, in order. -/
noncomputable def itemsAt {V : Type} (tol : K) (time : List K) (items : List (K × V)) (i : Nat) :
    List V :=
  (items.filter (fun p => decide (InRange tol time p.1 ∧ Nearest time p.1 i))).map (·.2)

theorem placeAll_spec {A V : Type} (agg : A → V → A) : ∀ (idx : List (Nat × V)) (acc : List A),
    (∀ q ∈ idx, q.1 < acc.length) →
    ∃ out, placeAll agg idx acc = .ok out ∧ out.length = acc.length ∧
      ∀ (i : Nat) x, acc[i]? = some x →
        out[i]? = some (((idx.filter (fun q => q.1 == i)).map (·.2)).foldl agg x) := by
  intro idx
  induction idx with
  | nil => intro acc _; exact ⟨acc, rfl, rfl, fun i x hx => by simpa using hx⟩
  | cons q rest ih =>
    intro acc hlt
    obtain ⟨k, v⟩ := q
    have hk : k < acc.length := hlt (k, v) (by simp)
    have hacc : acc[k]? = some acc[k] := List.getElem?_eq_getElem hk
    obtain ⟨out, h1, h2, h3⟩ := ih (acc.set k (agg acc[k] v))
      (fun q hq => by rw [List.length_set]; exact hlt q (by simp [hq]))
    refine ⟨out, ?_, by simpa using h2, ?_⟩
    · rw [placeAll, hacc]; exact h1
    · intro i x hx
      by_cases hik : k = i
      · subst hik
        rw [hacc] at hx; cases hx
        rw [h3 k (agg acc[k] v) (List.getElem?_set_self hk)]
        simp
      · rw [h3 i x (by rw [List.getElem?_set_ne hik]; exact hx)]
        simp [hik]

/-- Complete description of the output: entry `i` aggregates, in table order,
the items in range whose nearest time is `i`. -/
theorem ages2time_spec {A V : Type} (tol : K) (time : List K) (hne : time ≠ [])
    (items : List (K × V)) (agg : A → V → A) (fill : A) :
    ∃ out, ages2time tol time items agg fill = .ok out ∧ out.length = time.length ∧
      ∀ i : Nat, i < time.length → out[i]? = some ((itemsAt tol time items i).foldl agg fill) := by
  obtain ⟨⟨lo, hi⟩, hmm⟩ : ∃ r, minmaxRtol tol time = .ok r := by
    cases time with
    | nil => exact absurd rfl hne
    | cons x xs => exact ⟨_, rfl⟩
  set isin := items.filter (fun p => decide (p.1 ≥ lo) && decide (p.1 ≤ hi)) with hisin
  obtain ⟨idx, hidx⟩ := timeIdx_total hne isin
  have hspec := timeIdx_spec hidx
  have hlt : ∀ q ∈ idx, q.1 < (List.replicate time.length fill).length := by
    intro q hq
    have : ∀ {l : List (K × V)} {m : List (Nat × V)},
        List.Forall₂ (fun p q => Nearest time p.1 q.1 ∧ q.2 = p.2) l m →
        ∀ q ∈ m, q.1 < time.length := by
      intro l m h
      induction h with
      | nil => simp
      | cons h _ ih =>
        intro q hq
        rcases List.mem_cons.1 hq with rfl | hq
        · obtain ⟨⟨t, ht, _⟩, _⟩ := h
          exact (List.getElem?_eq_some_iff.1 ht).1
        · exact ih q hq
    simpa using this hspec q hq
  obtain ⟨out, h1, h2, h3⟩ := placeAll_spec agg idx _ hlt
  refine ⟨out, ?_, by simpa using h2, ?_⟩
  · unfold ages2time
    rw [hmm]
    show (do let idx ← timeIdx time isin; placeAll agg idx (List.replicate time.length fill)) = _
    rw [hidx]; exact h1
  · intro i hi
    rw [h3 i fill (by simp [hi])]
    congr 2
    unfold itemsAt
    have key : ∀ {l : List (K × V)} {m : List (Nat × V)},
        List.Forall₂ (fun p q => Nearest time p.1 q.1 ∧ q.2 = p.2) l m →
        (m.filter (fun q => q.1 == i)).map (·.2) =
          (l.filter (fun p => @decide (Nearest time p.1 i) (Classical.dec _))).map (·.2) := by
      intro l m h
      induction h with
      | nil => rfl
      | @cons p q l m hpq _ ih =>
        by_cases hqi : q.1 = i
        · have hn : Nearest time p.1 i := hqi ▸ hpq.1
          rw [List.filter_cons_of_pos (by simpa using hqi), List.filter_cons_of_pos (by simpa using hn)]
          simp [hpq.2, ih]
        · have hn : ¬ Nearest time p.1 i := fun hn => hqi (nearest_unique hpq.1 hn)
          rw [List.filter_cons_of_neg (by simpa using hqi), List.filter_cons_of_neg (by simpa using hn)]
          exact ih
    rw [key hspec, hisin, List.filter_filter]
    congr 1
    apply List.filter_congr
    intro p _
    rw [Bool.eq_iff_iff]
    simp only [Bool.and_eq_true, decide_eq_true_eq]
    rw [minmaxRtol_inRange hmm]
    tauto

/-! ## The properties -/

open Classical in
/-- **C15** Entry `i` of the output aggregates, in table order, exactly the
items whose age is in range and whose nearest model time is `i` (the first one
when several are equally near); there is always an output. -/
theorem C15_nearest_placement {A V : Type} (tol : K) (time : List K) (hne : time ≠ [])
    (items : List (K × V)) (agg : A → V → A) (fill : A) :
    ∃ out, ages2time tol time items agg fill = .ok out ∧ out.length = time.length ∧
      ∀ i : Nat, i < time.length →
        out[i]? = some (((items.filter
          (fun p => decide (InRange tol time p.1 ∧ Nearest time p.1 i))).map (·.2)).foldl agg fill) :=
  ages2time_spec tol time hne items agg fill

section Ordered

variable [IsStrictOrderedRing K]

/-- **C15** An age equal to a model time (times distinct, tolerance
non-negative) is in range and is placed at that time. -/
theorem C15_exact_age (tol : K) (htol : 0 ≤ tol) (time : List K) (hnd : time.Nodup) (i : Nat)
    (a : K) (hi : time[i]? = some a) : InRange tol time a ∧ Nearest time a i := by
  have hmem := List.mem_of_getElem? hi
  constructor
  · cases time with
    | nil => simp at hi
    | cons x xs =>
      obtain ⟨a1, a2⟩ := foldl_min_spec xs x
      obtain ⟨b1, b2⟩ := foldl_max_spec xs x
      refine ⟨⟨_, a1, a2, ?_⟩, ⟨_, b1, b2, ?_⟩⟩
      · have := a2 a hmem
        have h0 : 0 ≤ |xs.foldl min x| * tol := mul_nonneg (abs_nonneg _) htol
        linarith
      · have := b2 a hmem
        have h0 : 0 ≤ |xs.foldl max x| * tol := mul_nonneg (abs_nonneg _) htol
        linarith
  · refine ⟨a, hi, ?_, ?_⟩
    · intro j t' _; simp
    · intro j t' hj ht'
      have hne : t' ≠ a := by
        rintro rfl
        have h1 := (List.getElem?_eq_some_iff.1 hi).2
        have h2 := (List.getElem?_eq_some_iff.1 ht').2
        have := (hnd.getElem_inj_iff).1 (h2.trans h1.symm)
        omega
      simpa using sub_ne_zero.2 hne

theorem foldl_nansum (l : List (Option K)) : ∀ a : K,
    l.foldl nansum a = a + (l.filterMap id).sum := by
  induction l with
  | nil => intro a; simp
  | cons v l ih =>
    intro a
    rw [List.foldl_cons, ih]
    cases v with
    | none => simp [nansum]
    | some x => simp [nansum, add_assoc]

theorem foldl_nanmax_le (l : List (Option K)) : ∀ a b : K,
    l.foldl nanmax a ≤ b ↔ a ≤ b ∧ ∀ x, some x ∈ l → x ≤ b := by
  induction l with
  | nil => intro a b; simp
  | cons v l ih =>
    intro a b
    rw [List.foldl_cons, ih]
    cases v with
    | none => simp [nanmax]
    | some x => simp [nanmax, and_assoc]

theorem sum_range_filter {V : Type} (f : V → K) (n : Nat) (items : List (K × V))
    (P : (K × V) → Nat → Prop) [∀ p i, Decidable (P p i)]
    (Q : (K × V) → Prop) [∀ p, Decidable (Q p)]
    (huniq : ∀ p ∈ items, ∀ i j, P p i → P p j → i = j)
    (hex : ∀ p ∈ items, Q p ↔ ∃ i, i < n ∧ P p i) :
    ((List.range n).map (fun i => ((items.filter (fun p => decide (P p i))).map (fun p => f p.2)).sum)).sum
      = ((items.filter (fun p => decide (Q p))).map (fun p => f p.2)).sum := by
  induction items with
  | nil => simp
  | cons p rest ih =>
    have ih' := ih (fun q hq => huniq q (by simp [hq])) (fun q hq => hex q (by simp [hq]))
    have hstep : ∀ i, (((p :: rest).filter (fun p => decide (P p i))).map (fun p => f p.2)).sum =
        (if P p i then f p.2 else 0) +
          ((rest.filter (fun p => decide (P p i))).map (fun p => f p.2)).sum := by
      intro i
      by_cases h : P p i <;> simp [h]
    simp only [hstep, List.sum_map_add]
    rw [ih']
    have hone : ((List.range n).map (fun i => if P p i then f p.2 else 0)).sum =
        if Q p then f p.2 else 0 := by
      by_cases hq : Q p
      · obtain ⟨i, hi, hP⟩ := (hex p (by simp)).1 hq
        have : ∀ j, (if P p j then f p.2 else 0) = if j = i then f p.2 else 0 := by
          intro j
          by_cases hj : P p j
          · rw [if_pos hj, if_pos (huniq p (by simp) j i hj hP)]
          · rw [if_neg hj, if_neg (by rintro rfl; exact hj hP)]
        simp only [this, hq, if_true]
        rw [List.sum_map_ite_eq]
        simp [hi, List.count_range]
      · have : ∀ j ∈ List.range n, (if P p j then f p.2 else 0) = 0 := by
          intro j hj
          rw [if_neg]
          intro hP
          exact hq ((hex p (by simp)).2 ⟨j, List.mem_range.1 hj, hP⟩)
        rw [List.map_congr_left this]
        simp [hq]
    rw [hone]
    by_cases hq : Q p <;> simp [hq]

theorem exists_nearest {time : List K} (h : time ≠ []) (a : K) : ∃ i, i < time.length ∧ Nearest time a i := by
  obtain ⟨i, hi⟩ := argmin_total (l := time.map (fun t => |t - a|)) (by simpa using h)
  have hn := nearest_of_argmin hi
  obtain ⟨t, ht, _⟩ := hn
  exact ⟨i, (List.getElem?_eq_some_iff.1 ht).1, nearest_of_argmin hi⟩

open Classical in
/-- **C14** Binning with the sum aggregate conserves the total: the sum of the
output over all times is the sum of the non-missing values whose age is in
range. -/
theorem C14_binning_conserves (tol : K) (time : List K) (hne : time ≠ [])
    (items : List (K × Option K)) :
    ∃ out, ages2time tol time items nansum 0 = .ok out ∧
      out.sum = ((items.filter (fun p => decide (InRange tol time p.1))).filterMap (·.2)).sum := by
  obtain ⟨out, h1, h2, h3⟩ := ages2time_spec tol time hne items nansum (0 : K)
  refine ⟨out, h1, ?_⟩
  have hout : out = (List.range time.length).map
      (fun i => (itemsAt tol time items i).foldl nansum 0) := by
    apply List.ext_getElem?
    intro i
    by_cases hi : i < time.length
    · rw [h3 i hi]; simp [hi]
    · rw [List.getElem?_eq_none (by omega), List.getElem?_eq_none (by simp; omega)]
  have hval : ∀ l : List (K × Option K), (l.filterMap (·.2)).sum =
      (l.map (fun p => (p.2.getD 0))).sum := by
    intro l
    induction l with
    | nil => rfl
    | cons p l ih => obtain ⟨a, v⟩ := p; cases v <;> simp [ih]
  rw [hout]
  have hfold : ∀ i, (itemsAt tol time items i).foldl nansum 0 =
      ((items.filter (fun p => decide (InRange tol time p.1 ∧ Nearest time p.1 i))).map
        (fun p => p.2.getD 0)).sum := by
    intro i
    rw [foldl_nansum, zero_add, ← hval]
    unfold itemsAt
    rw [List.filterMap_map]
    rfl
  simp only [hfold, hval]
  apply sum_range_filter (fun v : Option K => v.getD 0) time.length items
    (fun p i => InRange tol time p.1 ∧ Nearest time p.1 i) (fun p => InRange tol time p.1)
  · intro p _ i j hi hj
    exact nearest_unique hi.2 hj.2
  · intro p _
    constructor
    · intro h
      obtain ⟨i, hi, hn⟩ := exists_nearest hne p.1
      exact ⟨i, hi, h, hn⟩
    · rintro ⟨i, _, h, _⟩; exact h

/-- C14/C15 on an example with a tie (age 5/2), an out-of-range age (7), a
missing value and two craters in one bin. -/
example : ages2time (1 / 1000000 : ℚ) [4, 3, 2, 1]
    [(5 / 2, some 10), (7, some 100), (1, none), (11 / 10, some 1), (1, some (2 : ℚ))] nansum 0 =
      .ok [0, 10, 0, 3] := by decide +kernel

/-- **C16** (sum) The order of the craters does not matter for summed output. -/
theorem C16_order_sum (tol : K) (time : List K) (hne : time ≠ [])
    (items items' : List (K × Option K)) (hperm : items.Perm items') :
    ages2time tol time items nansum 0 = ages2time tol time items' nansum 0 := by
  classical
  obtain ⟨out, h1, h2, h3⟩ := ages2time_spec tol time hne items nansum (0 : K)
  obtain ⟨out', h1', h2', h3'⟩ := ages2time_spec tol time hne items' nansum (0 : K)
  rw [h1, h1']
  congr 1
  apply List.ext_getElem?
  intro i
  by_cases hi : i < time.length
  · rw [h3 i hi, h3' i hi, foldl_nansum, foldl_nansum]
    unfold itemsAt
    rw [(((hperm.filter _).map _).filterMap _).sum_eq]
  · rw [List.getElem?_eq_none (by omega), List.getElem?_eq_none (by omega)]

/-- **C16** (maximum) With the maximum aggregate starting from 0, entry `i` is
the least upper bound of 0 and the values placed at `i`; missing values are
ignored. -/
theorem C16_maximum (tol : K) (time : List K) (hne : time ≠ [])
    (items : List (K × Option K)) :
    ∃ out, ages2time tol time items nanmax 0 = .ok out ∧ out.length = time.length ∧
      ∀ (i : Nat) x, out[i]? = some x → ∀ b, x ≤ b ↔
        0 ≤ b ∧ ∀ a v, (a, some v) ∈ items → InRange tol time a → Nearest time a i → v ≤ b := by
  obtain ⟨out, h1, h2, h3⟩ := ages2time_spec tol time hne items nanmax (0 : K)
  refine ⟨out, h1, h2, ?_⟩
  intro i x hx b
  have hi : i < time.length := by rw [← h2]; exact (List.getElem?_eq_some_iff.1 hx).1
  rw [h3 i hi] at hx
  cases hx
  rw [foldl_nanmax_le]
  constructor
  · rintro ⟨h0, hall⟩
    refine ⟨h0, fun a v hm hr hn => hall v ?_⟩
    unfold itemsAt
    rw [List.mem_map]
    exact ⟨(a, some v), by rw [List.mem_filter]; exact ⟨hm, by simpa using ⟨hr, hn⟩⟩, rfl⟩
  · rintro ⟨h0, hall⟩
    refine ⟨h0, fun v hv => ?_⟩
    unfold itemsAt at hv
    rw [List.mem_map] at hv
    obtain ⟨⟨a, w⟩, hm, rfl⟩ := hv
    rw [List.mem_filter] at hm
    have := hm.2
    simp at this
    exact hall a v hm.1 this.1 this.2

/-- **C16** (maximum, order) -/
theorem C16_order_max (tol : K) (time : List K) (hne : time ≠ [])
    (items items' : List (K × Option K)) (hperm : items.Perm items') :
    ages2time tol time items nanmax 0 = ages2time tol time items' nanmax 0 := by
  obtain ⟨out, h1, h2, h3⟩ := C16_maximum tol time hne items
  obtain ⟨out', h1', h2', h3'⟩ := C16_maximum tol time hne items'
  rw [h1, h1']
  congr 1
  apply List.ext_getElem?
  intro i
  by_cases hi : i < time.length
  · have e : out[i]? = some (out[i]'(by omega)) := List.getElem?_eq_getElem _
    have e' : out'[i]? = some (out'[i]'(by omega)) := List.getElem?_eq_getElem _
    rw [e, e']
    congr 1
    apply eq_of_forall_ge_iff
    intro b
    rw [h3 i _ e b, h3' i _ e' b]
    simp only [hperm.mem_iff]
  · rw [List.getElem?_eq_none (by omega), List.getElem?_eq_none (by omega)]

example : ages2time (1 / 1000000 : ℚ) [4, 3, 2, 1]
    [(5 / 2, some (-1)), (11 / 10, some 1), (1, none), (1, some (2 : ℚ))] nanmax 0 =
      .ok [0, 0, 0, 2] := by decide +kernel

end Ordered

end MoonPIES
