import Verif.Lemmas.Run
import Verif.Props.Cannon
import Verif.Lemmas.Strat
import Mathlib.Tactic.Linarith

/-!
# Idle timesteps: helper lemmas for C128
-/

namespace MoonPIES

/-- The list with `a` put before position `k`. -/
def putAt {α : Type} (k : Nat) (a : α) (l : List α) : List α := l.take k ++ a :: l.drop k

section lists

variable {α : Type} {k : Nat} {a : α} {l : List α}

theorem putAt_length : (putAt k a l).length = l.length + 1 := by
  rw [putAt, List.length_append, List.length_cons, List.length_take, List.length_drop]
  omega

theorem putAt_lt {i : Nat} (h : i < k) (hk : k ≤ l.length) : (putAt k a l)[i]? = l[i]? := by
  rw [putAt, List.getElem?_append_left (by rw [List.length_take]; omega),
    List.getElem?_take_of_lt h]

theorem putAt_self (hk : k ≤ l.length) : (putAt k a l)[k]? = some a := by
  rw [putAt, List.getElem?_append_right (by rw [List.length_take]; omega), List.length_take,
    Nat.min_eq_left hk, Nat.sub_self]
  rfl

theorem putAt_ge {i : Nat} (h : k ≤ i) (hk : k ≤ l.length) : (putAt k a l)[i + 1]? = l[i]? := by
  rw [putAt, List.getElem?_append_right (by rw [List.length_take]; omega), List.length_take,
    Nat.min_eq_left hk, show i + 1 - k = (i - k) + 1 by omega, List.getElem?_cons_succ,
    List.getElem?_drop]
  congr 1; omega

theorem putAt_set_lt {i : Nat} {x : α} (h : i < k) (hk : k ≤ l.length) :
    (putAt k a l).set i x = putAt k a (l.set i x) := by
  unfold putAt
  rw [List.set_append_left _ _ (by rw [List.length_take]; omega), List.take_set, List.drop_set_of_lt h]

theorem putAt_set_self (hk : k ≤ l.length) : (putAt k a l).set k a = putAt k a l := by
  unfold putAt
  rw [List.set_append_right _ _ (by rw [List.length_take]; omega), List.length_take,
    Nat.min_eq_left hk, Nat.sub_self]
  rfl

theorem putAt_set_ge {i : Nat} {x : α} (h : k ≤ i) (hk : k ≤ l.length) :
    (putAt k a l).set (i + 1) x = putAt k a (l.set i x) := by
  unfold putAt
  rw [List.set_append_right _ _ (by rw [List.length_take]; omega), List.length_take,
    Nat.min_eq_left hk, show i + 1 - k = (i - k) + 1 by omega, List.set_cons_succ,
    List.take_set_of_le h, List.drop_set, if_neg (by omega)]

end lists

variable {K : Type} [Field K] [LinearOrder K] [IsStrictOrderedRing K]

theorem gardenLoop_put_below {k : Nat} {ej : List K} (hk' : k ≤ ej.length) (depth eff : K) :
    ∀ (n : Nat) (d : K) (ice : List K), n ≤ 2 * k → k ≤ ice.length →
    gardenLoop (fun x => x) (putAt k 0 ej) depth eff n d (putAt k 0 ice) =
      (gardenLoop (fun x => x) ej depth eff n d ice).map (putAt k 0) := by
  intro n
  induction n with
  | zero => intros; rfl
  | succ n ih =>
    intro d ice hn hk
    rw [gardenLoop, gardenLoop, putAt_lt (by omega) hk, putAt_lt (by omega) hk']
    by_cases hd : d < depth
    · rw [if_pos hd, if_pos hd]
      by_cases hp : n % 2 = 1
      · rw [if_pos hp, if_pos hp]
        cases ej[n / 2]? with
        | none => rfl
        | some e => exact ih _ _ (by omega) hk
      · rw [if_neg hp, if_neg hp]
        cases ice[n / 2]? with
        | none => rfl
        | some x =>
          simp only []
          rw [putAt_set_lt (by omega) hk]
          exact ih _ _ (by omega) (by rw [List.length_set]; exact hk)
    · rw [if_neg hd, if_neg hd]; rfl

theorem gardenLoop_put {k : Nat} {ej : List K} (hk' : k ≤ ej.length) (depth eff : K) :
    ∀ (n : Nat) (d : K) (ice : List K), 2 * k ≤ n → k ≤ ice.length →
    gardenLoop (fun x => x) (putAt k 0 ej) depth eff (n + 2) d (putAt k 0 ice) =
      (gardenLoop (fun x => x) ej depth eff n d ice).map (putAt k 0) := by
  intro n
  induction n with
  | zero =>
    intro d ice hn hk
    obtain rfl : k = 0 := by omega
    by_cases hd : d < depth
    · simp [hd, putAt, gardenLoop, not_lt.2 hd.le, Except.map]
    · simp [hd, gardenLoop, Except.map]
  | succ n ih =>
    intro d ice hn hk
    by_cases hn' : 2 * k ≤ n
    · rw [gardenLoop, gardenLoop.eq_2 (fun x => x) ej, show (n + 2) / 2 = n / 2 + 1 by omega,
        show (n + 2) % 2 = n % 2 by omega, putAt_ge (by omega) hk, putAt_ge (by omega) hk']
      by_cases hd : d < depth
      · rw [if_pos hd, if_pos hd]
        by_cases hp : n % 2 = 1
        · rw [if_pos hp, if_pos hp]
          cases ej[n / 2]? with
          | none => rfl
          | some e => exact ih _ _ hn' hk
        · rw [if_neg hp, if_neg hp]
          cases ice[n / 2]? with
          | none => rfl
          | some x =>
            simp only []
            rw [putAt_set_ge (by omega) hk]
            exact ih _ _ hn' (by rw [List.length_set]; exact hk)
      · rw [if_neg hd, if_neg hd]; rfl
    · obtain ⟨j, rfl⟩ : ∃ j, k = j + 1 := ⟨k - 1, by omega⟩
      obtain rfl : n = 2 * j + 1 := by omega
      rw [gardenLoop]
      by_cases hd : d < depth
      · rw [if_pos hd, if_pos (by omega), show (2 * j + 1 + 2) / 2 = j + 1 by omega, putAt_self hk']
        simp only [add_zero]
        rw [gardenLoop, if_pos hd, if_neg (by omega), show (2 * j + 1 + 1) / 2 = j + 1 by omega,
          putAt_self hk]
        simp only [zero_mul, add_zero, gt_iff_lt, if_neg (not_lt.2 hd.le), sub_zero]
        rw [putAt_set_self hk]
        exact gardenLoop_put_below hk' depth eff _ _ _ (by omega) hk
      · rw [if_neg hd, gardenLoop, if_neg hd]; rfl

omit [IsStrictOrderedRing K] in
theorem erodeLoop_put_below {k : Nat} (t base t' base' : Int) (hb : t > base ↔ t' > base') :
    ∀ (n : Nat) (ed : K) (ice : List K), n ≤ k → k ≤ ice.length →
    erodeLoop (fun x => x) t' base' n ed (putAt k 0 ice) =
      (erodeLoop (fun x => x) t base n ed ice).map (putAt k 0) := by
  intro n
  induction n with
  | zero => intros; rfl
  | succ n ih =>
    intro ed ice hn hk
    rw [erodeLoop, erodeLoop, putAt_lt (by omega) hk]
    by_cases hd : ed > 0
    · rw [if_pos hd, if_pos hd]
      by_cases h : t > base
      · rw [if_pos h, if_pos (hb.1 h)]
        cases ice[n]? with
        | none => rfl
        | some x =>
          simp only []
          rw [putAt_set_lt (by omega) hk]
          exact ih _ _ (by omega) (by rw [List.length_set]; exact hk)
      · rw [if_neg h, if_neg (fun h' => h (hb.2 h'))]; rfl
    · rw [if_neg hd, if_neg hd]; rfl

omit [IsStrictOrderedRing K] in
theorem erodeLoop_put {k : Nat} (t base t' base' : Int) (hb : t > base ↔ t' > base') :
    ∀ (n : Nat) (ed : K) (ice : List K), k ≤ n → k ≤ ice.length →
    erodeLoop (fun x => x) t' base' (n + 1) ed (putAt k 0 ice) =
      (erodeLoop (fun x => x) t base n ed ice).map (putAt k 0) := by
  intro n
  induction n with
  | zero =>
    intro ed ice hn hk
    obtain rfl : k = 0 := by omega
    rw [erodeLoop, erodeLoop]
    by_cases hd : ed > 0
    · rw [if_pos hd]
      split
      · simp [putAt, erodeLoop, not_le.2 hd, Except.map]
      · rfl
    · rw [if_neg hd]; rfl
  | succ n ih =>
    intro ed ice hn hk
    by_cases hn' : k ≤ n
    · rw [erodeLoop, erodeLoop.eq_2 (fun x => x) t base, putAt_ge hn' hk]
      by_cases hd : ed > 0
      · rw [if_pos hd, if_pos hd]
        by_cases h : t > base
        · rw [if_pos h, if_pos (hb.1 h)]
          cases ice[n]? with
          | none => rfl
          | some x =>
            simp only []
            rw [putAt_set_ge hn' hk]
            exact ih _ _ hn' (by rw [List.length_set]; exact hk)
        · rw [if_neg h, if_neg (fun h' => h (hb.2 h'))]; rfl
      · rw [if_neg hd, if_neg hd]; rfl
    · obtain rfl : k = n + 1 := by omega
      rw [erodeLoop]
      by_cases hd : ed > 0
      · rw [if_pos hd]
        by_cases h : t > base
        · rw [if_pos (hb.1 h), putAt_self hk]
          simp only [ge_iff_le, if_neg (not_le.2 hd), sub_zero]
          rw [putAt_set_self hk]
          exact erodeLoop_put_below t base t' base' hb _ _ _ (by omega) hk
        · rw [if_neg (fun h' => h (hb.2 h')), erodeLoop, if_pos hd, if_neg h]; rfl
      · rw [if_neg hd, erodeLoop, if_neg hd]; rfl

/-- One step before the idle one. -/
theorem updateIceCol_put_below {k : Nat} (shield : K) (costello : Bool) {ice ej : List K} {t : Nat}
    (ov bd bf : K) (ht : t < k) (hk : k ≤ ice.length) (hk' : k ≤ ej.length) :
    updateIceCol (fun x => x) shield costello (putAt k 0 ice) (putAt k 0 ej) t ov bd bf =
      (updateIceCol (fun x => x) shield costello ice ej t ov bd bf).map (putAt k 0) := by
  unfold updateIceCol gardenIceColumn
  rw [garden_turns', show ((t : Int) - 1 + 1).toNat = t by omega,
    gardenLoop_put_below hk' bd bf _ _ _ (by omega) hk]
  cases hg : gardenLoop (fun x => x) ej bd bf (2 * t) 0 ice with
  | error e => rfl
  | ok i1 =>
    have hl := (gardenLoop_frame _ _ _ _ _ _ _ _ hg).1
    change removeIceOverturn (fun x => x) shield costello (putAt k 0 i1) (putAt k 0 ej) t ov =
      (removeIceOverturn (fun x => x) shield costello i1 ej t ov).map (putAt k 0)
    unfold removeIceOverturn
    cases costello with
    | true =>
      simp only [if_true, gardenIceColumn]
      rw [garden_turns', show ((t : Int) + 1).toNat = t + 1 by omega]
      exact gardenLoop_put_below hk' _ _ _ _ _ (by omega) (by omega)
    | false =>
      simp only [Bool.false_eq_true, if_false, erodeIceCannon]
      refine erodeLoop_put_below _ _ _ _ ?_ _ _ _ (by omega) (by omega)
      rw [gt_iff_lt, gt_iff_lt, erosionBase_lt_iff, erosionBase_lt_iff, putAt_lt ht hk']

/-- One step after the idle one. -/
theorem updateIceCol_put {k : Nat} (shield : K) (costello : Bool) {ice ej : List K}
    {t : Nat} (ov bd bf : K) (ht : k ≤ t) (hk : k ≤ ice.length) (hk' : k ≤ ej.length) :
    updateIceCol (fun x => x) shield costello (putAt k 0 ice) (putAt k 0 ej) (t + 1) ov bd bf =
      (updateIceCol (fun x => x) shield costello ice ej t ov bd bf).map (putAt k 0) := by
  unfold updateIceCol gardenIceColumn
  rw [garden_turns', garden_turns', show (((t + 1 : Nat) : Int) - 1 + 1).toNat = t + 1 by omega,
    show ((t : Int) - 1 + 1).toNat = t by omega, show 2 * (t + 1) = 2 * t + 2 by omega,
    gardenLoop_put hk' bd bf _ _ _ (by omega) hk]
  cases hg : gardenLoop (fun x => x) ej bd bf (2 * t) 0 ice with
  | error e => rfl
  | ok i1 =>
    have hl := (gardenLoop_frame _ _ _ _ _ _ _ _ hg).1
    change removeIceOverturn (fun x => x) shield costello (putAt k 0 i1) (putAt k 0 ej) (t + 1) ov =
      (removeIceOverturn (fun x => x) shield costello i1 ej t ov).map (putAt k 0)
    unfold removeIceOverturn
    cases costello with
    | true =>
      simp only [if_true, gardenIceColumn]
      rw [garden_turns', garden_turns', show (((t + 1 : Nat) : Int) + 1).toNat = t + 2 by omega,
        show ((t : Int) + 1).toNat = t + 1 by omega, show 2 * (t + 2) = 2 * (t + 1) + 2 by omega]
      exact gardenLoop_put hk' _ _ _ _ _ (by omega) (by omega)
    | false =>
      simp only [Bool.false_eq_true, if_false, erodeIceCannon]
      refine erodeLoop_put _ _ _ _ ?_ _ _ _ (by omega) (by omega)
      rw [gt_iff_lt, gt_iff_lt, erosionBase_lt_iff, erosionBase_lt_iff, putAt_ge ht hk']

omit [IsStrictOrderedRing K] in
/-- The idle step. -/
theorem updateIceCol_idle (shield : K) (costello : Bool) (ice ej : List K) (t : Nat) (bf : K) :
    updateIceCol (fun x => x) shield costello ice ej t 0 0 bf = .ok ice := by
  have hg : ∀ (n : Nat) (eff : K), gardenLoop (fun x => x) ej 0 eff n 0 ice = .ok ice := by
    intro n eff
    cases n with
    | zero => rfl
    | succ n => rw [gardenLoop, if_neg (lt_irrefl _)]
  unfold updateIceCol gardenIceColumn
  rw [hg]
  change removeIceOverturn (fun x => x) shield costello ice ej t 0 = .ok ice
  unfold removeIceOverturn
  cases costello with
  | true => exact hg _ _
  | false =>
    simp only [Bool.false_eq_true, if_false, erodeIceCannon]
    rw [erodeLoop, if_neg (lt_irrefl _)]

end MoonPIES
