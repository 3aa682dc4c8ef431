import Verif.Model.StratFl
import Verif.Spec.StratFl
import Verif.Props.Strat
import Mathlib.Tactic.Linarith
import Mathlib.Tactic.Positivity
import Mathlib.Tactic.Ring
import Mathlib.Tactic.LinearCombination

/-!
# Rounded stratigraphy tables: lemmas
-/

namespace MoonPIES

open Spec

variable {K : Type} [Field K] [LinearOrder K] [IsStrictOrderedRing K]

/-! ### Rounding errors -/

theorem relErr_bounds {fl : K → K} {u : K} (h : RelErr fl u) {x : K} (hx : 0 ≤ x) :
    (1 - u) * x ≤ fl x ∧ fl x ≤ (1 + u) * x := by
  have := abs_le.1 (h x)
  rw [abs_of_nonneg hx] at this
  constructor <;> linarith [this.1, this.2]

omit [IsStrictOrderedRing K] in
theorem rounding_nonneg {fl : K → K} (h : Rounding fl) {x : K} (hx : 0 ≤ x) : 0 ≤ fl x := by
  rw [← h.zero]; exact h.mono hx

theorem relErr_eq_zero {fl : K → K} {u : K} (h : RelErr fl u) (hu : u < 1) {x : K}
    (hx : 0 ≤ x) (h0 : fl x = 0) : x = 0 := by
  have := (relErr_bounds h hx).1
  rw [h0] at this
  by_contra hne
  have hp : 0 < x := lt_of_le_of_ne hx (Ne.symm hne)
  have : 0 < (1 - u) * x := mul_pos (by linarith) hp
  linarith

/-! ### Depths -/

/-- Rounded sums from the end of the list. -/
def suffixFl (fl : K → K) : List K → K
  | [] => 0
  | x :: xs => fl (suffixFl fl xs + x)

/-- All of them. -/
def suffixesFl (fl : K → K) : List K → List K
  | [] => []
  | x :: xs => suffixFl fl (x :: xs) :: suffixesFl fl xs

omit [LinearOrder K] [IsStrictOrderedRing K] in
theorem cumsumFl_append (fl : K → K) (l : List K) : ∀ acc x,
    cumsumFl fl acc (l ++ [x]) =
      cumsumFl fl acc l ++ [fl (l.foldl (fun a y => fl (a + y)) acc + x)] := by
  induction l with
  | nil => intro acc x; simp [cumsumFl]
  | cons y l ih => intro acc x; simp [cumsumFl, ih]

omit [LinearOrder K] [IsStrictOrderedRing K] in
theorem foldl_suffixFl (fl : K → K) (l : List K) :
    l.reverse.foldl (fun a y => fl (a + y)) 0 = suffixFl fl l := by
  induction l with
  | nil => rfl
  | cons x l ih => rw [List.reverse_cons, List.foldl_append, ih]; rfl

omit [LinearOrder K] [IsStrictOrderedRing K] in
theorem rev_cumsumFl (fl : K → K) (l : List K) :
    (cumsumFl fl 0 l.reverse).reverse = suffixesFl fl l := by
  induction l with
  | nil => rfl
  | cons x l ih =>
    rw [List.reverse_cons, cumsumFl_append, List.reverse_append, ih, foldl_suffixFl]
    rfl

variable [FloorRing K]

omit [IsStrictOrderedRing K] in
theorem addDepthPctFl_cons (fl : K → K) (r : Row K) (rows : List (Row K)) :
    addDepthPctFl fl (r :: rows) =
      { ice := r.ice, ejecta := r.ejecta, label := r.label, time := r.time,
        depth := suffixFl fl ((r :: rows).map (fun r => fl (r.ice + r.ejecta))),
        icepct := icePctFl fl r.ice r.ejecta } :: addDepthPctFl fl rows := by
  unfold addDepthPctFl
  rw [rev_cumsumFl, rev_cumsumFl, List.map_cons, suffixesFl, List.zipWith_cons_cons]

omit [IsStrictOrderedRing K] in
theorem addDepthPctFl_getElem (fl : K → K) (rows : List (Row K)) : ∀ (i : Nat),
    (addDepthPctFl fl rows)[i]? = (rows[i]?).map (fun r =>
      { ice := r.ice, ejecta := r.ejecta, label := r.label, time := r.time,
        depth := suffixFl fl ((rows.drop i).map (fun r => fl (r.ice + r.ejecta))),
        icepct := icePctFl fl r.ice r.ejecta }) := by
  induction rows with
  | nil => intro i; simp [addDepthPctFl]
  | cons r rows ih =>
    intro i
    rw [addDepthPctFl_cons]
    cases i with
    | zero => simp
    | succ i => simp [ih i]

omit [FloorRing K] in
theorem suffixFl_nonneg {fl : K → K} (h : Rounding fl) (l : List K) (hl : ∀ x ∈ l, 0 ≤ x) :
    0 ≤ suffixFl fl l := by
  induction l with
  | nil => exact le_refl _
  | cons x l ih =>
    exact rounding_nonneg h (add_nonneg (ih (fun y hy => hl y (List.mem_cons_of_mem _ hy)))
      (hl x (List.mem_cons_self)))

omit [IsStrictOrderedRing K] [FloorRing K] in
theorem suffixFl_repr {fl : K → K} (h : Rounding fl) (l : List K) :
    fl (suffixFl fl l) = suffixFl fl l := by
  cases l with
  | nil => exact h.zero
  | cons x l => exact h.idem _

omit [FloorRing K] in
/-- Rounded sums stay within `(1 ± u)^n` of the exact sums. -/
theorem suffixFl_close {fl : K → K} {u : K} (h : Rounding fl) (he : RelErr fl u)
    (hu0 : 0 ≤ u) (hu1 : u ≤ 1) (l : List K) (hl : ∀ x ∈ l, 0 ≤ x) :
    (1 - u) ^ l.length * l.sum ≤ suffixFl fl l ∧ suffixFl fl l ≤ (1 + u) ^ l.length * l.sum := by
  induction l with
  | nil => simp [suffixFl]
  | cons x l ih =>
    have hx := hl x (List.mem_cons_self)
    have hl' : ∀ y ∈ l, 0 ≤ y := fun y hy => hl y (List.mem_cons_of_mem _ hy)
    obtain ⟨i1, i2⟩ := ih hl'
    have hs := suffixFl_nonneg h l hl'
    obtain ⟨b1, b2⟩ := relErr_bounds he (add_nonneg hs hx)
    have hq1 : (1 - u) ^ l.length ≤ 1 := pow_le_one₀ (by linarith) (by linarith)
    have hq2 : 1 ≤ (1 + u) ^ l.length := one_le_pow₀ (by linarith)
    have e1 : (1 - u) ^ (l.length + 1) * (x + l.sum) =
        (1 - u) * ((1 - u) ^ l.length * l.sum + (1 - u) ^ l.length * x) := by ring
    have e2 : (1 + u) ^ (l.length + 1) * (x + l.sum) =
        (1 + u) * ((1 + u) ^ l.length * l.sum + (1 + u) ^ l.length * x) := by ring
    rw [List.length_cons, List.sum_cons, e1, e2]
    show _ ≤ fl (suffixFl fl l + x) ∧ fl (suffixFl fl l + x) ≤ _
    constructor
    · refine le_trans (mul_le_mul_of_nonneg_left (add_le_add i1 ?_) (by linarith)) b1
      exact mul_le_of_le_one_left hx hq1
    · refine le_trans b2 (mul_le_mul_of_nonneg_left (add_le_add i2 ?_) (by linarith))
      exact le_mul_of_one_le_left hx hq2

/-! ### Percentages -/

theorem roundHalfEven_near (y : K) : |(roundHalfEven y : K) - y| ≤ 1 / 2 := by
  have h1 := Int.floor_le y
  have h2 := Int.lt_floor_add_one y
  unfold roundHalfEven
  simp only []
  rw [abs_le]
  split
  · constructor <;> linarith
  · split
    · push_cast; constructor <;> linarith
    · split
      · constructor <;> linarith
      · push_cast; constructor <;> linarith

theorem roundHalfEven_le_of_lt {y : K} {m : Int} (h : y < m + 1 / 2) : roundHalfEven y ≤ m := by
  have := (abs_le.1 (roundHalfEven_near y)).2
  have h2 : (roundHalfEven y : K) < ((m + 1 : Int) : K) := by push_cast; linarith
  have := Int.cast_lt.1 h2
  omega

theorem le_roundHalfEven_of_lt {y : K} {m : Int} (h : m - 1 / 2 < y) : m ≤ roundHalfEven y := by
  have := (abs_le.1 (roundHalfEven_near y)).1
  have h2 : ((m - 1 : Int) : K) < (roundHalfEven y : K) := by push_cast; linarith
  have := Int.cast_lt.1 h2
  omega

section percent

variable {fl : K → K} {u : K} (h : Rounding fl) (he : RelErr fl u)
  (hu0 : 0 ≤ u) (hu : u ≤ 1 / 10000000) (h100 : fl 100 = 100)

include h he hu0 hu h100

/-- A number close to 100 is printed as at most 100. -/
theorem round4Fl_le {b : K} (hb : b ≤ (1 + u) ^ 2 * 100) (hb0 : 0 ≤ b) :
    0 ≤ round4Fl fl b ∧ round4Fl fl b ≤ 100 := by
  have hb1 : 0 ≤ b * 10000 := by positivity
  have hc := (relErr_bounds he hb1).2
  have hc0 : 0 ≤ fl (b * 10000) := rounding_nonneg h hb1
  have hlt : fl (b * 10000) < ((1000000 : Int) : K) + 1 / 2 := by
    have h1 : fl (b * 10000) ≤ (1 + u) * ((1 + u) ^ 2 * 100 * 10000) :=
      le_trans hc (mul_le_mul_of_nonneg_left
        (mul_le_mul_of_nonneg_right hb (by norm_num)) (by linarith))
    have h2 : (1 + u) * ((1 + u) ^ 2 * 100 * 10000) ≤ (1 + 1 / 10000000) ^ 3 * 1000000 := by
      have : (1 + u) ^ 3 ≤ (1 + 1 / 10000000 : K) ^ 3 :=
        pow_le_pow_left₀ (by linarith) (by linarith) 3
      calc (1 + u) * ((1 + u) ^ 2 * 100 * 10000) = (1 + u) ^ 3 * 1000000 := by ring
        _ ≤ _ := mul_le_mul_of_nonneg_right this (by norm_num)
    have h3 : (1 + 1 / 10000000 : K) ^ 3 * 1000000 < ((1000000 : Int) : K) + 1 / 2 := by
      push_cast; norm_num
    linarith
  have hm := roundHalfEven_le_of_lt hlt
  have hm0 : (0 : Int) ≤ roundHalfEven (fl (b * 10000)) :=
    le_roundHalfEven_of_lt (by push_cast; linarith)
  unfold round4Fl
  constructor
  · exact rounding_nonneg h (div_nonneg (by exact_mod_cast hm0) (by norm_num))
  · rw [← h100]
    apply h.mono
    have : (roundHalfEven (fl (b * 10000)) : K) ≤ 1000000 := by exact_mod_cast hm
    rw [div_le_iff₀ (by norm_num)]
    linarith

/-- A number between `100 (1 - u)^2` and `100 (1 + u)^2` is printed as 100. -/
theorem round4Fl_full {b : K} (hb : b ≤ (1 + u) ^ 2 * 100) (hb' : (1 - u) ^ 2 * 100 ≤ b) :
    round4Fl fl b = 100 := by
  have hb0 : 0 ≤ b := le_trans (by positivity) hb'
  refine le_antisymm (round4Fl_le h he hu0 hu h100 hb hb0).2 ?_
  have hb1 : 0 ≤ b * 10000 := by positivity
  have hc := (relErr_bounds he hb1).1
  have hlt : ((1000000 : Int) : K) - 1 / 2 < fl (b * 10000) := by
    have h1 : (1 - u) * ((1 - u) ^ 2 * 100 * 10000) ≤ fl (b * 10000) :=
      le_trans (mul_le_mul_of_nonneg_left
        (mul_le_mul_of_nonneg_right hb' (by norm_num)) (by linarith)) hc
    have h2 : (1 - 1 / 10000000) ^ 3 * 1000000 ≤ (1 - u) * ((1 - u) ^ 2 * 100 * 10000) := by
      have : (1 - 1 / 10000000 : K) ^ 3 ≤ (1 - u) ^ 3 :=
        pow_le_pow_left₀ (by norm_num) (by linarith) 3
      calc (1 - 1 / 10000000 : K) ^ 3 * 1000000 ≤ (1 - u) ^ 3 * 1000000 :=
            mul_le_mul_of_nonneg_right this (by norm_num)
        _ = _ := by ring
    have h3 : ((1000000 : Int) : K) - 1 / 2 < (1 - 1 / 10000000 : K) ^ 3 * 1000000 := by
      push_cast; norm_num
    linarith
  have hm := le_roundHalfEven_of_lt hlt
  unfold round4Fl
  conv_lhs => rw [← h100]
  apply h.mono
  have : (1000000 : K) ≤ roundHalfEven (fl (b * 10000)) := by exact_mod_cast hm
  rw [le_div_iff₀ (by norm_num)]
  linarith

/-- The printed percentage of a layer. -/
theorem icePctFl_spec {ice ej : K} (hi : 0 ≤ ice) (hj : 0 ≤ ej) (hr : Repr fl ice) :
    (icePctFl fl ice ej = none ↔ ice = 0 ∧ ej = 0) ∧
    ∀ p, icePctFl fl ice ej = some p → 0 ≤ p ∧ p ≤ 100 ∧ (ice = 0 → p = 0) ∧
      (ej = 0 → p = 100) := by
  have hsum : 0 ≤ ice + ej := add_nonneg hi hj
  have hT0 : 0 ≤ fl (ice + ej) := rounding_nonneg h hsum
  unfold icePctFl
  by_cases hT : fl (ice + ej) = 0
  · rw [if_pos hT]
    have := relErr_eq_zero he (by linarith) hsum hT
    refine ⟨⟨fun _ => ⟨by linarith, by linarith⟩, fun _ => rfl⟩, fun p hp => by cases hp⟩
  · rw [if_neg hT]
    have hTp : 0 < fl (ice + ej) := lt_of_le_of_ne hT0 (Ne.symm hT)
    refine ⟨⟨fun h' => absurd h' (by simp), ?_⟩, ?_⟩
    · rintro ⟨rfl, rfl⟩
      exact absurd (by rw [add_zero, h.zero]) hT
    · intro p hp
      injection hp with hp
      have hle : ice ≤ fl (ice + ej) := by
        have := h.mono (show ice ≤ ice + ej by linarith)
        rwa [hr] at this
      have h1i : 0 ≤ 100 * ice := by positivity
      obtain ⟨a1, a2⟩ := relErr_bounds he h1i
      have ha0 : 0 ≤ fl (100 * ice) := rounding_nonneg h h1i
      have hd0 : 0 ≤ fl (100 * ice) / fl (ice + ej) := div_nonneg ha0 hT0
      obtain ⟨b1, b2⟩ := relErr_bounds he hd0
      have hb0 := rounding_nonneg h hd0
      have hup : fl (fl (100 * ice) / fl (ice + ej)) ≤ (1 + u) ^ 2 * 100 := by
        have : fl (100 * ice) / fl (ice + ej) ≤ (1 + u) * 100 := by
          rw [div_le_iff₀ hTp]
          refine le_trans a2 ?_
          have : (1 + u) * (100 * ice) ≤ (1 + u) * (100 * fl (ice + ej)) :=
            mul_le_mul_of_nonneg_left (by linarith) (by linarith)
          linarith
        calc _ ≤ (1 + u) * (fl (100 * ice) / fl (ice + ej)) := b2
          _ ≤ (1 + u) * ((1 + u) * 100) := mul_le_mul_of_nonneg_left this (by linarith)
          _ = _ := by ring
      obtain ⟨p0, p1⟩ := round4Fl_le h he hu0 hu h100 hup hb0
      rw [hp] at p0 p1
      refine ⟨p0, p1, ?_, ?_⟩
      · intro h0
        rw [← hp, h0, mul_zero, h.zero, zero_div, h.zero]
        unfold round4Fl
        rw [zero_mul, h.zero]
        have : roundHalfEven (0 : K) = 0 := by
          unfold roundHalfEven; simp
        rw [this]; simp [h.zero]
      · intro h0
        rw [← hp]
        apply round4Fl_full h he hu0 hu h100 hup
        rw [h0, add_zero, hr] at hTp b1 ⊢
        have : (1 - u) * 100 ≤ fl (100 * ice) / ice := by
          rw [le_div_iff₀ hTp]; linarith
        calc (1 - u) ^ 2 * 100 = (1 - u) * ((1 - u) * 100) := by ring
          _ ≤ (1 - u) * (fl (100 * ice) / ice) := mul_le_mul_of_nonneg_left this (by linarith)
          _ ≤ _ := b1

end percent

/-- Rounding moves a printed percentage by at most one in the fourth decimal. -/
theorem icePctFl_close {fl : K → K} {u v : K} (h : Rounding fl) (he : RelErr fl u)
    (hu0 : 0 ≤ u) (hu : u ≤ 1 / 100000000) (hv0 : 0 ≤ v) (hv : v ≤ 1 / 100000000)
    {i e i' e' : K} (hi : 0 ≤ i) (hj : 0 ≤ e) (hne : i + e ≠ 0)
    (hi1 : (1 - v) * i ≤ i') (hi2 : i' ≤ (1 + v) * i)
    (he1 : (1 - v) * e ≤ e') (he2 : e' ≤ (1 + v) * e) :
    ∃ p, icePctFl fl i' e' = some p ∧
      |p - round4 (100 * i / (i + e))| ≤ 1 / 10000 + 100 * u := by
  have hS : 0 < i + e := lt_of_le_of_ne (add_nonneg hi hj) (Ne.symm hne)
  have hi0 : 0 ≤ i' := le_trans (mul_nonneg (by linarith) hi) hi1
  have he0 : 0 ≤ e' := le_trans (mul_nonneg (by linarith) hj) he1
  have hS'1 : (1 - v) * (i + e) ≤ i' + e' := by linarith
  have hS'2 : i' + e' ≤ (1 + v) * (i + e) := by linarith
  have hS'0 : 0 < i' + e' := lt_of_lt_of_le (mul_pos (by linarith) hS) hS'1
  obtain ⟨t1, t2⟩ := relErr_bounds he hS'0.le
  have hT : 0 < fl (i' + e') := lt_of_lt_of_le (mul_pos (by linarith) hS'0) t1
  have hA : 0 ≤ 100 * i' := by positivity
  obtain ⟨a1, a2⟩ := relErr_bounds he hA
  have ha0 := rounding_nonneg h hA
  have hD : 0 ≤ fl (100 * i') / fl (i' + e') := div_nonneg ha0 hT.le
  obtain ⟨b1, b2⟩ := relErr_bounds he hD
  have hb0 := rounding_nonneg h hD
  have hB : 0 ≤ fl (fl (100 * i') / fl (i' + e')) * 10000 := by positivity
  obtain ⟨c1, c2⟩ := relErr_bounds he hB
  refine ⟨_, by unfold icePctFl; rw [if_neg hT.ne'], ?_⟩
  -- the unrounded numbers agree to 0.1 in the fourth decimal
  obtain ⟨q, hq⟩ : ∃ q, q = 100 * i / (i + e) := ⟨_, rfl⟩
  rw [← hq]
  have hqS : q * (i + e) = 100 * i := by rw [hq, div_mul_cancel₀ _ hne]
  have hq0 : 0 ≤ q := by rw [hq]; positivity
  have hq100 : q ≤ 100 := by
    rw [hq, div_le_iff₀ hS]; linarith
  have key1 : fl (100 * i') / fl (i' + e') ≤ q * ((1 + u) * (1 + v) / ((1 - u) * (1 - v))) := by
    rw [div_le_iff₀ hT]
    have hp : 0 < (1 - u) * (1 - v) := mul_pos (by linarith) (by linarith)
    have : (1 - u) * (1 - v) * (i + e) ≤ fl (i' + e') := by
      calc (1 - u) * (1 - v) * (i + e) = (1 - u) * ((1 - v) * (i + e)) := by ring
        _ ≤ (1 - u) * (i' + e') := mul_le_mul_of_nonneg_left hS'1 (by linarith)
        _ ≤ _ := t1
    have hF : 0 ≤ q * ((1 + u) * (1 + v) / ((1 - u) * (1 - v))) :=
      mul_nonneg hq0 (div_nonneg (mul_nonneg (by linarith) (by linarith)) hp.le)
    calc fl (100 * i') ≤ (1 + u) * (100 * i') := a2
      _ ≤ (1 + u) * (100 * ((1 + v) * i)) :=
        mul_le_mul_of_nonneg_left (by linarith) (by linarith)
      _ = (1 + u) * (1 + v) * (q * (i + e)) := by rw [hqS]; ring
      _ = q * ((1 + u) * (1 + v) / ((1 - u) * (1 - v))) * ((1 - u) * (1 - v) * (i + e)) := by
        have hcan := div_mul_cancel₀ ((1 + u) * (1 + v)) hp.ne'
        linear_combination (-(q * (i + e))) * hcan
      _ ≤ _ := mul_le_mul_of_nonneg_left this hF
  have key2 : q * ((1 - u) * (1 - v) / ((1 + u) * (1 + v))) ≤ fl (100 * i') / fl (i' + e') := by
    rw [le_div_iff₀ hT]
    have hp : 0 < (1 + u) * (1 + v) := mul_pos (by linarith) (by linarith)
    have : fl (i' + e') ≤ (1 + u) * (1 + v) * (i + e) := by
      calc fl (i' + e') ≤ (1 + u) * (i' + e') := t2
        _ ≤ (1 + u) * ((1 + v) * (i + e)) := mul_le_mul_of_nonneg_left hS'2 (by linarith)
        _ = _ := by ring
    have hF : 0 ≤ q * ((1 - u) * (1 - v) / ((1 + u) * (1 + v))) :=
      mul_nonneg hq0 (div_nonneg (mul_nonneg (by linarith) (by linarith)) hp.le)
    calc q * ((1 - u) * (1 - v) / ((1 + u) * (1 + v))) * fl (i' + e')
        ≤ q * ((1 - u) * (1 - v) / ((1 + u) * (1 + v))) * ((1 + u) * (1 + v) * (i + e)) :=
          mul_le_mul_of_nonneg_left this hF
      _ = (1 - u) * (1 - v) * (q * (i + e)) := by
        have hcan := div_mul_cancel₀ ((1 - u) * (1 - v)) hp.ne'
        linear_combination (q * (i + e)) * hcan
      _ = (1 - u) * (100 * ((1 - v) * i)) := by rw [hqS]; ring
      _ ≤ (1 - u) * (100 * i') := mul_le_mul_of_nonneg_left (by linarith) (by linarith)
      _ ≤ _ := a1
  have fac1 : (1 + u) ^ 2 * ((1 + u) * (1 + v) / ((1 - u) * (1 - v))) ≤ 1 + 1 / 10000000 := by
    rw [← mul_div_assoc, div_le_iff₀ (mul_pos (by linarith) (by linarith))]
    have x1 : (1 + u) ^ 2 * ((1 + u) * (1 + v)) ≤ (1 + 1 / 100000000 : K) ^ 4 := by
      calc (1 + u) ^ 2 * ((1 + u) * (1 + v)) = (1 + u) ^ 3 * (1 + v) := by ring
        _ ≤ (1 + 1 / 100000000 : K) ^ 3 * (1 + 1 / 100000000) :=
          mul_le_mul (pow_le_pow_left₀ (by linarith) (by linarith) 3) (by linarith)
            (by linarith) (by positivity)
        _ = _ := by ring
    have x2 : (1 - 1 / 100000000 : K) ^ 2 ≤ (1 - u) * (1 - v) := by
      rw [pow_two]
      exact mul_le_mul (by linarith) (by linarith) (by norm_num) (by linarith)
    have x3 : (1 + 1 / 100000000 : K) ^ 4 ≤
        (1 + 1 / 10000000) * (1 - 1 / 100000000 : K) ^ 2 := by norm_num
    calc _ ≤ _ := x1
      _ ≤ _ := x3
      _ ≤ _ := mul_le_mul_of_nonneg_left x2 (by norm_num)
  have fac2 : 1 - 1 / 10000000 ≤ (1 - u) ^ 2 * ((1 - u) * (1 - v) / ((1 + u) * (1 + v))) := by
    rw [← mul_div_assoc, le_div_iff₀ (mul_pos (by linarith) (by linarith))]
    have x1 : (1 - 1 / 100000000 : K) ^ 4 ≤ (1 - u) ^ 2 * ((1 - u) * (1 - v)) := by
      calc (1 - 1 / 100000000 : K) ^ 4 = (1 - 1 / 100000000 : K) ^ 3 * (1 - 1 / 100000000) := by
            ring
        _ ≤ (1 - u) ^ 3 * (1 - v) :=
          mul_le_mul (pow_le_pow_left₀ (by norm_num) (by linarith) 3) (by linarith)
            (by norm_num) (pow_nonneg (by linarith) 3)
        _ = _ := by ring
    have x2 : (1 + u) * (1 + v) ≤ (1 + 1 / 100000000 : K) ^ 2 := by
      rw [pow_two]
      exact mul_le_mul (by linarith) (by linarith) (by linarith) (by norm_num)
    have x3 : (1 - 1 / 10000000) * (1 + 1 / 100000000 : K) ^ 2 ≤
        (1 - 1 / 100000000 : K) ^ 4 := by norm_num
    calc _ ≤ _ := mul_le_mul_of_nonneg_left x2 (by norm_num)
      _ ≤ _ := x3
      _ ≤ _ := x1
  obtain ⟨c, hc⟩ : ∃ c, c = fl (fl (fl (100 * i') / fl (i' + e')) * 10000) := ⟨_, rfl⟩
  rw [← hc] at c1 c2
  have hc2 : c ≤ q * 10000 + 1 / 10 := by
    have s1 : c ≤ (1 + u) ^ 2 * (fl (100 * i') / fl (i' + e')) * 10000 := by
      calc c ≤ (1 + u) * (fl (fl (100 * i') / fl (i' + e')) * 10000) := c2
        _ ≤ (1 + u) * ((1 + u) * (fl (100 * i') / fl (i' + e')) * 10000) :=
          mul_le_mul_of_nonneg_left (mul_le_mul_of_nonneg_right b2 (by norm_num)) (by linarith)
        _ = _ := by ring
    have s2 : (1 + u) ^ 2 * (fl (100 * i') / fl (i' + e')) * 10000 ≤
        q * 10000 * (1 + 1 / 10000000) := by
      calc (1 + u) ^ 2 * (fl (100 * i') / fl (i' + e')) * 10000
          ≤ (1 + u) ^ 2 * (q * ((1 + u) * (1 + v) / ((1 - u) * (1 - v)))) * 10000 :=
            mul_le_mul_of_nonneg_right (mul_le_mul_of_nonneg_left key1 (by positivity))
              (by norm_num)
        _ = q * 10000 * ((1 + u) ^ 2 * ((1 + u) * (1 + v) / ((1 - u) * (1 - v)))) := by ring
        _ ≤ _ := mul_le_mul_of_nonneg_left fac1 (by positivity)
    linarith
  have hc1 : q * 10000 - 1 / 10 ≤ c := by
    have s1 : (1 - u) ^ 2 * (fl (100 * i') / fl (i' + e')) * 10000 ≤ c := by
      calc (1 - u) ^ 2 * (fl (100 * i') / fl (i' + e')) * 10000
          = (1 - u) * ((1 - u) * (fl (100 * i') / fl (i' + e')) * 10000) := by ring
        _ ≤ (1 - u) * (fl (fl (100 * i') / fl (i' + e')) * 10000) :=
          mul_le_mul_of_nonneg_left (mul_le_mul_of_nonneg_right b1 (by norm_num)) (by linarith)
        _ ≤ c := c1
    have s2 : q * 10000 * (1 - 1 / 10000000) ≤
        (1 - u) ^ 2 * (fl (100 * i') / fl (i' + e')) * 10000 := by
      calc q * 10000 * (1 - 1 / 10000000)
          ≤ q * 10000 * ((1 - u) ^ 2 * ((1 - u) * (1 - v) / ((1 + u) * (1 + v)))) :=
            mul_le_mul_of_nonneg_left fac2 (by positivity)
        _ = (1 - u) ^ 2 * (q * ((1 - u) * (1 - v) / ((1 + u) * (1 + v)))) * 10000 := by ring
        _ ≤ _ := mul_le_mul_of_nonneg_right (mul_le_mul_of_nonneg_left key2 (by positivity))
              (by norm_num)
    linarith
  unfold round4Fl round4
  rw [← hc]
  obtain ⟨m, hm⟩ : ∃ m, m = roundHalfEven (q * 10000) := ⟨_, rfl⟩
  obtain ⟨m', hm'⟩ : ∃ m', m' = roundHalfEven c := ⟨_, rfl⟩
  have n1 := abs_le.1 (roundHalfEven_near (q * 10000))
  have n2 := abs_le.1 (roundHalfEven_near c)
  rw [← hm] at n1 ⊢
  rw [← hm'] at n2 ⊢
  have d1 : m' - m ≤ 1 := by
    have : ((m' - m : Int) : K) < ((2 : Int) : K) := by push_cast; linarith [n1.1, n2.2]
    have := Int.cast_lt.1 this
    omega
  have d2 : -1 ≤ m' - m := by
    have : ((-2 : Int) : K) < ((m' - m : Int) : K) := by push_cast; linarith [n1.2, n2.1]
    have := Int.cast_lt.1 this
    omega
  have m1 : m' ≤ 1000000 := by
    have : (m' : K) < ((1000001 : Int) : K) := by push_cast; linarith [n2.2]
    have := Int.cast_lt.1 this
    omega
  have m0 : 0 ≤ m' := by
    have : ((-1 : Int) : K) < (m' : K) := by push_cast; linarith [n2.1]
    have := Int.cast_lt.1 this
    omega
  have m1K : (m' : K) ≤ 1000000 := by exact_mod_cast m1
  have m0K : (0 : K) ≤ m' := by exact_mod_cast m0
  have d1K : (m' : K) - m ≤ 1 := by exact_mod_cast d1
  have d2K : (-1 : K) ≤ (m' : K) - m := by exact_mod_cast d2
  have hy0 : (0 : K) ≤ (m' : K) / 10000 := by positivity
  have hy1 : (m' : K) / 10000 ≤ 100 := by rw [div_le_iff₀ (by norm_num)]; linarith
  have := abs_le.1 (he ((m' : K) / 10000))
  rw [abs_of_nonneg hy0] at this
  have hu100 : u * ((m' : K) / 10000) ≤ 100 * u := by
    rw [mul_comm 100 u]; exact mul_le_mul_of_nonneg_left hy1 hu0
  rw [abs_le]
  constructor <;> linarith [this.1, this.2]

end MoonPIES
