import Verif.Lemmas.Sensitive
import Verif.Lemmas.Column

/-!
# Lemmas on gardening and erosion with rounded arithmetic
-/

namespace MoonPIES

open Spec

set_option linter.unusedSectionVars false
variable {K : Type} [Field K] [LinearOrder K]

/-- What gardening takes from a layer of `x` metres under `d` metres. -/
def takes (fl : K → K) (depth eff d x : K) : K :=
  if fl (d + fl (x * eff)) > depth then fl (depth - d) else fl (x * eff)

/-- Gardening of a pile, youngest layer first, with rounding. -/
def sinkFl (fl : K → K) (depth eff : K) : K → List (K × K) → List K
  | _, [] => []
  | d, (x, e) :: l =>
    if d < depth ∧ fl (d + e) < depth then
      fl (x - takes fl depth eff (fl (d + e)) x) ::
        sinkFl fl depth eff (fl (fl (d + e) + fl (x - takes fl depth eff (fl (d + e)) x))) l
    else x :: l.map (·.1)

/-- Erosion of a pile, youngest layer first, with rounding. -/
def eatFl (fl : K → K) : K → List K → List K
  | _, [] => []
  | ed, x :: xs =>
    if ed > 0 then (if x ≥ ed then fl (x - ed) else 0) :: eatFl fl (fl (ed - x)) xs else x :: xs

theorem garden_sinkFl (fl : K → K) (ej : List K) (depth eff : K) : ∀ (n : Nat) (d : K) (ice : List K),
    n ≤ ice.length → n ≤ ej.length →
    gardenLoop fl ej depth eff (2 * n) d ice =
      .ok ((sinkFl fl depth eff d (pileOf ice ej n)).reverse ++ ice.drop n) := by
  intro n
  induction n with
  | zero =>
    intro d ice _ _
    simp [pileOf, sinkFl, gardenLoop]
  | succ n ih =>
    intro d ice hi he
    have hx : ice[n]? = some ice[n] := List.getElem?_eq_getElem hi
    have hy : ej[n]? = some ej[n] := List.getElem?_eq_getElem he
    have hpile : (ice[n] :: (pileOf ice ej n).map (·.1)).reverse ++ ice.drop (n + 1) = ice := by
      rw [List.reverse_cons, List.append_assoc]
      have : ((pileOf ice ej n).map (·.1)).reverse = ice.take n := by
        unfold pileOf
        rw [List.map_reverse, List.reverse_reverse]
        exact List.map_fst_zip (by rw [List.length_take, List.length_take]; omega)
      rw [this]
      show ice.take n ++ (ice[n] :: ice.drop (n + 1)) = ice
      rw [← List.drop_eq_getElem_cons, List.take_append_drop]
    rw [pileOf_succ hx hy, sinkFl, gardenLoop_layer]
    by_cases h1 : d < depth
    · rw [if_pos h1, hy]
      simp only []
      by_cases h2 : fl (d + ej[n]) < depth
      · rw [if_pos h2, hx, if_pos ⟨h1, h2⟩]
        simp only []
        rw [ih _ _ (by rw [List.length_set]; omega) (by omega)]
        have hp : ∀ y, pileOf (ice.set n y) ej n = pileOf ice ej n := by
          intro y
          unfold pileOf
          rw [List.take_set_of_le (le_refl n)]
        rw [hp, List.reverse_cons, List.append_assoc]
        congr 2
        rw [List.drop_eq_getElem_cons (by rw [List.length_set]; exact hi), List.getElem_set_self,
          List.drop_set_of_lt (by omega)]
        rfl
      · rw [if_neg h2, if_neg (by rintro ⟨-, h⟩; exact h2 h), hpile]
    · rw [if_neg h1, if_neg (by rintro ⟨h, -⟩; exact h1 h), hpile]

theorem erode_eatFl (fl : K → K) {t base : Int} (hb : base < t) : ∀ (k : Nat) (ed : K) (ice : List K),
    k ≤ ice.length →
    erodeLoop fl t base k ed ice = .ok ((eatFl fl ed (ice.take k).reverse).reverse ++ ice.drop k) := by
  intro k
  induction k with
  | zero => intro ed ice _; simp [erodeLoop, eatFl]
  | succ k ih =>
    intro ed ice hk
    have hx : ice[k]? = some ice[k] := List.getElem?_eq_getElem (by omega)
    have htk : (ice.take (k + 1)).reverse = ice[k] :: (ice.take k).reverse := by
      rw [List.take_add_one, hx, Option.toList_some, List.reverse_append]; rfl
    rw [htk, eatFl, erodeLoop]
    by_cases hp : ed > 0
    · rw [if_pos hp, if_pos hb, hx, if_pos hp]
      simp only []
      rw [ih _ _ (by rw [List.length_set]; omega), List.take_set_of_le (le_refl k), List.reverse_cons,
        List.append_assoc]
      congr 2
      rw [List.drop_eq_getElem_cons (by rw [List.length_set]; omega), List.getElem_set_self,
        List.drop_set_of_lt (by omega)]
      rfl
    · rw [if_neg hp, if_neg hp, List.reverse_cons, List.reverse_reverse, List.append_assoc]
      congr 1
      show ice = ice.take k ++ (ice[k] :: ice.drop (k + 1))
      rw [← List.drop_eq_getElem_cons, List.take_append_drop]

variable [IsStrictOrderedRing K]

/-- Rounding moves numbers up to `M` by at most `η`. -/
def AbsErr (fl : K → K) (M η : K) : Prop := ∀ y, |y| ≤ M → |fl y - y| ≤ η

theorem sinkFl_length (fl : K → K) (depth eff : K) : ∀ (l : List (K × K)) (d : K),
    (sinkFl fl depth eff d l).length = l.length
  | [], _ => rfl
  | (x, e) :: l, d => by
    rw [sinkFl]
    split
    · rw [List.length_cons, List.length_cons, sinkFl_length fl depth eff l]
    · rw [List.length_cons, List.length_cons, List.length_map]

theorem eatFl_length (fl : K → K) : ∀ (l : List K) (ed : K), (eatFl fl ed l).length = l.length
  | [], _ => rfl
  | x :: xs, ed => by
    rw [eatFl]
    split
    · rw [List.length_cons, List.length_cons, eatFl_length fl xs]
    · rfl

/-- One layer: what is left differs from what exact arithmetic leaves at the same depth by four roundings. -/
theorem takes_gap {fl : K → K} {M η : K} (hfl : Rounding fl) (herr : AbsErr fl M η) {depth eff d x : K}
    (h0 : 0 ≤ eff) (h1 : eff ≤ 1) (hd : Repr fl depth) (hx : 0 ≤ x) (hr : Repr fl x) (hd0 : 0 ≤ d) (hlt : d < depth)
    (hM : depth + x ≤ M) :
    |fl (x - takes fl depth eff d x) - (x - min (x * eff) (max (depth - d) 0))| ≤ 4 * η ∧
      0 ≤ fl (x - takes fl depth eff d x) ∧ fl (x - takes fl depth eff d x) ≤ x := by
  obtain ⟨t0, t1⟩ := removed_bounds hfl hx hr h0 h1 hd hlt
  have t0 : 0 ≤ takes fl depth eff d x := t0
  have t1 : takes fl depth eff d x ≤ x := t1
  obtain ⟨l0, l1⟩ := left_bounds hfl hr t0 t1
  refine ⟨?_, l0, l1⟩
  have hxe0 : 0 ≤ x * eff := mul_nonneg hx h0
  have hxe1 : x * eff ≤ x := mul_le_of_le_one_right hx h1
  have e1 := abs_le.1 (herr (x * eff) (by rw [abs_of_nonneg hxe0]; linarith))
  have hr0 : 0 ≤ fl (x * eff) := by
    have := hfl.mono hxe0; rwa [hfl.zero] at this
  have hr1 : fl (x * eff) ≤ x := by
    have := hfl.mono hxe1; rwa [hr] at this
  have e2 := abs_le.1 (herr (d + fl (x * eff)) (by rw [abs_of_nonneg (by linarith)]; linarith))
  have e3 := abs_le.1 (herr (depth - d) (by rw [abs_of_nonneg (by linarith)]; linarith))
  have e4 := abs_le.1 (herr (x - takes fl depth eff d x) (by rw [abs_of_nonneg (by linarith)]; linarith))
  have e5 : |takes fl depth eff d x - min (x * eff) (depth - d)| ≤ 3 * η := by
    unfold takes
    split
    · rename_i h
      rw [abs_le]
      rcases le_total (x * eff) (depth - d) with c | c
      · rw [min_eq_left c]; constructor <;> linarith
      · rw [min_eq_right c]; constructor <;> linarith
    · rename_i h
      rw [gt_iff_lt, not_lt] at h
      rw [abs_le]
      rcases le_total (x * eff) (depth - d) with c | c
      · rw [min_eq_left c]; constructor <;> linarith
      · rw [min_eq_right c]; constructor <;> linarith
  rw [max_eq_left (by linarith)]
  have e5 := abs_le.1 e5
  rw [abs_le]
  constructor <;> linarith

theorem sinkFl_gap {fl : K → K} {M η : K} (hfl : Rounding fl) (herr : AbsErr fl M η) (hη : 0 ≤ η) {depth eff : K}
    (h0 : 0 ≤ eff) (h1 : eff ≤ 1) (hd : Repr fl depth) : ∀ (l : List (K × K)) (d b : K),
    (∀ p ∈ l, 0 ≤ p.1 ∧ 0 ≤ p.2 ∧ Repr fl p.1 ∧ depth + p.1 ≤ M ∧ depth + p.2 ≤ M) → 0 ≤ d →
    gap (sinkFl fl depth eff d l) (work eff b l) ≤ (2 ^ l.length - 1) * (|depth - d - b| + 7 * η)
  | [], _, _, _, _ => by simp [sinkFl, gap]
  | (x, e) :: l, d, b, hl, hd0 => by
    obtain ⟨hx, he, hr, hMx, hMe⟩ := hl (x, e) (by simp)
    simp only [] at hx he hr hMx hMe
    have hl' : ∀ p ∈ l, 0 ≤ p.1 ∧ 0 ≤ p.2 ∧ Repr fl p.1 ∧ depth + p.1 ≤ M ∧ depth + p.2 ≤ M :=
      fun p hp => hl p (by simp [hp])
    have hl2 : ∀ p ∈ l, 0 ≤ p.1 ∧ 0 ≤ p.2 := fun p hp => ⟨(hl' p hp).1, (hl' p hp).2.1⟩
    have hP : (1 : K) ≤ 2 ^ l.length := one_le_pow₀ (by norm_num)
    have hδ := abs_nonneg (depth - d - b)
    -- a pile left alone is one worked with nothing to work with
    have alone : ∀ b' : K, b' - e ≤ 0 → |b' - b| ≤ |depth - d - b| + 7 * η →
        gap (x :: l.map (·.1)) (work eff b ((x, e) :: l)) ≤
          (2 ^ ((x, e) :: l).length - 1) * (|depth - d - b| + 7 * η) := by
      intro b' hb' hbb
      have hw : work eff b' ((x, e) :: l) = x :: l.map (·.1) := by
        rw [work, max_eq_right hb', min_eq_right (mul_nonneg hx h0), sub_zero,
          work_done eff h0 l _ (by linarith) hl2]
      rw [← hw]
      refine (work_gap eff h0 h1 _ _ b' b rfl).trans ?_
      rw [gap_self, gap_self, add_zero, add_zero, add_zero]
      exact mul_le_mul_of_nonneg_left hbb (sub_nonneg.2 (one_le_pow₀ (by norm_num)))
    rw [sinkFl]
    by_cases c : d < depth ∧ fl (d + e) < depth
    · rw [if_pos c]
      have hde := abs_le.1 (herr (d + e) (by rw [abs_of_nonneg (by linarith)]; linarith [c.1]))
      have hd1 : 0 ≤ fl (d + e) := by
        have := hfl.mono (show 0 ≤ d + e by linarith); rwa [hfl.zero] at this
      obtain ⟨t1, t2, t3⟩ := takes_gap hfl herr h0 h1 hd hx hr hd1 c.2 hMx
      rw [work, gap, List.length_cons, pow_succ]
      generalize hx' : fl (x - takes fl depth eff (fl (d + e)) x) = x' at *
      generalize fl (d + e) = d1 at *
      have hd2 := abs_le.1 (herr (d1 + x') (by rw [abs_of_nonneg (by linarith)]; linarith [c.2]))
      have hd20 : 0 ≤ fl (d1 + x') := by
        have := hfl.mono (show 0 ≤ d1 + x' by linarith); rwa [hfl.zero] at this
      have ih := sinkFl_gap hfl herr hη h0 h1 hd l (fl (d1 + x'))
        (b - e - (x - min (x * eff) (max (b - e) 0))) hl' hd20
      have lg := layer_gap eff x x (depth - d1) (b - e) h0 h1
      rw [sub_self, abs_zero, zero_add] at lg
      generalize x - min (x * eff) (max (b - e) 0) = y at *
      generalize x - min (x * eff) (max (depth - d1) 0) = z at *
      generalize fl (d1 + x') = d2 at *
      have k1 : |depth - d1 - (b - e)| ≤ |depth - d - b| + η := by
        have := abs_le.1 (le_refl |depth - d - b|)
        rw [abs_le]; constructor <;> linarith
      have k2 : |x' - y| ≤ |depth - d - b| + 5 * η := by
        have a1 := abs_le.1 t1
        have a2 := abs_le.1 (lg.trans k1)
        rw [abs_le]; constructor <;> linarith
      have k3 : |depth - d2 - (b - e - y)| ≤ 2 * |depth - d - b| + 7 * η := by
        have a1 := abs_le.1 k1
        have a2 := abs_le.1 k2
        rw [abs_le]; constructor <;> linarith
      have k4 := mul_le_mul_of_nonneg_left
        (show |depth - d2 - (b - e - y)| + 7 * η ≤ 2 * (|depth - d - b| + 7 * η) by linarith)
        (show 0 ≤ (2 : K) ^ l.length - 1 by linarith)
      generalize (2 : K) ^ l.length = P at *
      linarith
    · rw [if_neg c]
      by_cases c1 : d < depth
      · have c2 : depth ≤ fl (d + e) := by
          by_contra h
          exact c ⟨c1, not_le.1 h⟩
        have hde := abs_le.1 (herr (d + e) (by rw [abs_of_nonneg (by linarith)]; linarith))
        refine alone (depth - fl (d + e) + e) (by linarith) ?_
        have := abs_le.1 (le_refl |depth - d - b|)
        rw [abs_le]; constructor <;> linarith
      · exact alone (depth - d) (by linarith [not_lt.1 c1]) (by linarith)

theorem eatFl_stop {fl : K → K} : ∀ (l : List K) (ed : K), ed ≤ 0 → eatFl fl ed l = l
  | [], _, _ => rfl
  | x :: xs, ed, h => by rw [eatFl, if_neg (by exact not_lt.2 h)]

theorem eatFl_gap {fl : K → K} {M η : K} (hfl : Rounding fl) (herr : AbsErr fl M η) (hη : 0 ≤ η)
    (hM : Repr fl M) : ∀ (l l' : List K) (ed ed' : K), l.length = l'.length →
    (∀ x ∈ l, 0 ≤ x ∧ x ≤ M) → (∀ x ∈ l', 0 ≤ x) → 0 ≤ ed → ed ≤ M → 0 ≤ ed' →
    gap (eatFl fl ed l) (eat ed' l') ≤ gap l l' + |ed - ed'| + l.length * η
  | [], [], ed, ed', _, _, _, _, _, _ => by simp [eatFl, eat, gap]
  | [], _ :: _, _, _, h, _, _, _, _, _ => by simp at h
  | _ :: _, [], _, _, h, _, _, _, _, _ => by simp at h
  | x :: xs, y :: ys, ed, ed', h, hx, hy, he, heM, he' => by
    have h' : xs.length = ys.length := by simpa using h
    have hx' : ∀ z ∈ xs, 0 ≤ z ∧ z ≤ M := fun z hz => hx z (by simp [hz])
    have hy' : ∀ z ∈ ys, 0 ≤ z := fun z hz => hy z (by simp [hz])
    obtain ⟨hx0, hxM⟩ := hx x (by simp)
    have exact := eat_gap (x :: xs) (y :: ys) ed ed' h (fun z hz => (hx z hz).1) hy he he'
    have hn : (0 : K) ≤ xs.length * η := by positivity
    rw [eatFl, List.length_cons, Nat.cast_add, Nat.cast_one]
    by_cases c : ed > 0
    · rw [if_pos c]
      by_cases c1 : ed ≤ x
      · have e1 := abs_le.1 (herr (x - ed) (by rw [abs_of_nonneg (by linarith)]; linarith))
        have hs : fl (ed - x) ≤ 0 := by
          have := hfl.mono (show ed - x ≤ 0 by linarith); rwa [hfl.zero] at this
        rw [if_pos c1, eatFl_stop _ _ hs]
        rw [eat, if_pos c1] at exact
        cases hq : eat ed' (y :: ys) with
        | nil => rw [eat] at hq; split at hq <;> cases hq
        | cons q qs =>
          rw [hq, gap] at exact
          rw [gap]
          have : |fl (x - ed) - q| ≤ |x - ed - q| + η := by
            have := abs_le.1 (le_refl |x - ed - q|)
            rw [abs_le]; constructor <;> linarith
          linarith
      · rw [if_neg c1]
        rw [not_le] at c1
        have e1 := abs_le.1 (herr (ed - x) (by rw [abs_of_nonneg (by linarith)]; linarith))
        have f0 : 0 ≤ fl (ed - x) := by
          have := hfl.mono (show 0 ≤ ed - x by linarith); rwa [hfl.zero] at this
        have f1 : fl (ed - x) ≤ M := by
          have := hfl.mono (show ed - x ≤ M by linarith); rwa [hM] at this
        have k1 := abs_le.1 (le_refl |x - y|)
        have k2 := abs_le.1 (le_refl |ed - ed'|)
        rw [eat]
        split
        · rename_i c2
          have ih := eatFl_gap hfl herr hη hM xs ys (fl (ed - x)) 0 h' hx' hy' f0 f1 le_rfl
          rw [eat_zero ys hy', sub_zero, abs_of_nonneg f0] at ih
          rw [gap, gap, zero_sub, abs_neg, abs_of_nonneg (a := y - ed') (by linarith)]
          linarith
        · rename_i c2
          rw [not_le] at c2
          have ih := eatFl_gap hfl herr hη hM xs ys (fl (ed - x)) (ed' - y) h' hx' hy' f0 f1 (by linarith)
          rw [gap, gap, sub_zero, abs_zero]
          have : |fl (ed - x) - (ed' - y)| ≤ |ed - ed'| + |x - y| + η := by
            rw [abs_le]; constructor <;> linarith
          linarith
    · have he0 : ed = 0 := le_antisymm (not_lt.1 c) he
      rw [if_neg c]
      rw [he0, eat_zero _ (fun z hz => (hx z hz).1)] at exact
      rw [he0]
      linarith

end MoonPIES
