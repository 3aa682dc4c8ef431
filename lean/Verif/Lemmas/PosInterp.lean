import Verif.Model.Bsed
import Mathlib.Algebra.Order.Field.Basic
import Mathlib.Tactic.Ring
import Mathlib.Tactic.Linarith
import Mathlib.Tactic.NormNum
import Mathlib.Tactic.Positivity

/-!
# Facts about interpolation by position and sorted unions
-/

namespace MoonPIES

set_option linter.unusedSectionVars false

variable {K : Type} [Field K] [LinearOrder K] [IsStrictOrderedRing K]

theorem prevKnown_some (l : List (Option K)) (i a : Nat) (v : K) (hl : l[a]? = some (some v))
    (ha : a ≤ i) : ∃ b w, prevKnown l i = some (b, w) ∧ a ≤ b ∧ b ≤ i ∧ l[b]? = some (some w) := by
  induction i with
  | zero =>
    have : a = 0 := by omega
    subst this
    exact ⟨0, v, by simp [prevKnown, knownAt, hl], le_refl _, le_refl _, hl⟩
  | succ i ih =>
    have e : prevKnown l (i + 1) = (knownAt l (i + 1)).or (prevKnown l i) := by
      unfold prevKnown
      rw [List.range_succ, List.reverse_append, List.reverse_singleton, List.singleton_append,
        List.findSome?_cons]
      cases knownAt l (i + 1) <;> rfl
    rw [e]
    unfold knownAt
    match hk : l[i + 1]? with
    | some (some w) => exact ⟨i + 1, w, by simp, by omega, le_refl _, hk⟩
    | some none =>
      have hai : a ≤ i := by
        rcases Nat.lt_or_ge i a with h | h
        · have : a = i + 1 := by omega
          subst this; rw [hl] at hk; cases hk
        · exact h
      obtain ⟨b, w, h1, h2, h3, h4⟩ := ih hai
      exact ⟨b, w, by simp [h1], h2, by omega, h4⟩
    | none =>
      have hai : a ≤ i := by
        rcases Nat.lt_or_ge i a with h | h
        · have : a = i + 1 := by omega
          subst this; rw [hl] at hk; cases hk
        · exact h
      obtain ⟨b, w, h1, h2, h3, h4⟩ := ih hai
      exact ⟨b, w, by simp [h1], h2, by omega, h4⟩

theorem nextKnown_some (l : List (Option K)) (i b : Nat) (v : K) (hl : l[b]? = some (some v))
    (hb : i ≤ b) : ∃ c w, nextKnown l i = some (c, w) ∧ i ≤ c ∧ c ≤ b ∧ l[c]? = some (some w) := by
  obtain ⟨n, hn⟩ : ∃ n, n = b - i := ⟨_, rfl⟩
  induction n generalizing i with
  | zero =>
    have : b = i := by omega
    subst this
    have hlen : b < l.length := (List.getElem?_eq_some_iff.1 hl).1
    obtain ⟨k, hk⟩ : ∃ k, l.length - b = k + 1 := ⟨l.length - b - 1, by omega⟩
    refine ⟨b, v, ?_, le_refl _, le_refl _, hl⟩
    unfold nextKnown
    rw [hk, List.range'_succ, List.findSome?_cons, knownAt, hl]
  | succ n ih =>
    have hlen : b < l.length := (List.getElem?_eq_some_iff.1 hl).1
    obtain ⟨k, hk⟩ : ∃ k, l.length - i = k + 1 := ⟨l.length - i - 1, by omega⟩
    have e : nextKnown l i = (knownAt l i).or (nextKnown l (i + 1)) := by
      unfold nextKnown
      rw [hk, List.range'_succ, List.findSome?_cons, show l.length - (i + 1) = k by omega]
      cases knownAt l i <;> rfl
    rw [e]
    unfold knownAt
    obtain ⟨c, w, h1, h2, h3, h4⟩ := ih (i + 1) (by omega) (by omega)
    match hk : l[i]? with
    | some (some w') => exact ⟨i, w', by simp, le_refl _, by omega, hk⟩
    | some none => exact ⟨c, w, by simp [h1], by omega, h3, h4⟩
    | none => exact ⟨c, w, by simp [h1], by omega, h3, h4⟩

/-- Between two known positions the interpolation is defined and stays within any bounds of
the known values in between. -/
theorem posInterp_between (l : List (Option K)) (a i b : Nat) (va vb lo hi : K)
    (ha : l[a]? = some (some va)) (hb : l[b]? = some (some vb)) (hai : a ≤ i) (hib : i ≤ b)
    (hbd : ∀ (k : Nat) v, a ≤ k → k ≤ b → l[k]? = some (some v) → lo ≤ v ∧ v ≤ hi) :
    ∃ y, (posInterp l)[i]? = some (some y) ∧ lo ≤ y ∧ y ≤ hi := by
  have hlen : b < l.length := (List.getElem?_eq_some_iff.1 hb).1
  obtain ⟨p, v, hp, hp1, hp2, hp3⟩ := prevKnown_some l i a va ha hai
  obtain ⟨q, w, hq, hq1, hq2, hq3⟩ := nextKnown_some l i b vb hb hib
  have hv := hbd p v hp1 (by omega) hp3
  have hw := hbd q w (by omega) hq2 hq3
  have e : (posInterp l)[i]? = some (if p = q then some v
      else some (v + (w - v) * (((i : K) - p) / ((q : K) - p)))) := by
    unfold posInterp
    rw [List.getElem?_mapIdx, List.getElem?_eq_getElem (by omega)]
    simp only [Option.map_some]
    rw [hp, hq]
  rw [e]
  by_cases hpq : p = q
  · exact ⟨v, by rw [if_pos hpq], hv.1, hv.2⟩
  · refine ⟨v + (w - v) * (((i : K) - p) / ((q : K) - p)), by rw [if_neg hpq], ?_⟩
    have hpq' : (p : K) < q := by exact_mod_cast (by omega : p < q)
    have hip : (p : K) ≤ i := by exact_mod_cast hp2
    have hiq : (i : K) ≤ q := by exact_mod_cast hq1
    obtain ⟨r, hr⟩ : ∃ r, r = ((i : K) - p) / ((q : K) - p) := ⟨_, rfl⟩
    have hr0 : 0 ≤ r := by rw [hr]; apply div_nonneg <;> linarith
    have hr1 : r ≤ 1 := by rw [hr, div_le_one (by linarith)]; linarith
    rw [← hr]
    have e2 : v + (w - v) * r = (1 - r) * v + r * w := by ring
    rw [e2]
    constructor
    · nlinarith [mul_le_mul_of_nonneg_left hv.1 (by linarith : 0 ≤ 1 - r),
        mul_le_mul_of_nonneg_left hw.1 hr0]
    · nlinarith [mul_le_mul_of_nonneg_left hv.2 (by linarith : 0 ≤ 1 - r),
        mul_le_mul_of_nonneg_left hw.2 hr0]

/-- A row or column with nothing known stays unknown. -/
theorem posInterp_none (l : List (Option K)) (h : ∀ x ∈ l, x = none) (i : Nat) (x : Option K)
    (hx : (posInterp l)[i]? = some x) : x = none := by
  have hk : prevKnown l i = none := by
    unfold prevKnown
    rw [List.findSome?_eq_none_iff]
    intro a _
    unfold knownAt
    cases ha : l[a]? with
    | none => rfl
    | some y => rw [h y (List.mem_of_getElem? ha)]
  unfold posInterp at hx
  rw [List.getElem?_mapIdx] at hx
  cases hl : l[i]? with
  | none => rw [hl] at hx; cases hx
  | some y =>
    rw [hl] at hx
    simp only [Option.map_some, Option.some.injEq, hk] at hx
    exact hx.symm

theorem posInterp_length (l : List (Option K)) : (posInterp l).length = l.length := by
  simp [posInterp]

/-! ### Sorted unions -/

theorem mem_insertU (x y : K) (l : List K) : y ∈ insertU x l ↔ y = x ∨ y ∈ l := by
  induction l with
  | nil => simp [insertU]
  | cons z l ih =>
    unfold insertU
    split_ifs with h1 h2
    · simp
    · subst h2; simp
    · simp only [List.mem_cons, ih]; tauto

theorem insertU_sorted (x : K) (l : List K) (h : l.Pairwise (· < ·)) :
    (insertU x l).Pairwise (· < ·) := by
  induction l with
  | nil => simp [insertU]
  | cons z l ih =>
    have hz := List.pairwise_cons.1 h
    unfold insertU
    split_ifs with h1 h2
    · refine List.pairwise_cons.2 ⟨?_, h⟩
      intro y hy
      rcases List.mem_cons.1 hy with rfl | hy
      · exact h1
      · exact h1.trans (hz.1 y hy)
    · exact h
    · refine List.pairwise_cons.2 ⟨?_, ih hz.2⟩
      intro y hy
      rcases (mem_insertU x y l).1 hy with rfl | hy
      · exact lt_of_le_of_ne (not_lt.1 h1) (fun h => h2 h.symm)
      · exact hz.1 y hy

theorem mem_sortUnique (y : K) (l : List K) : y ∈ sortUnique l ↔ y ∈ l := by
  induction l with
  | nil => simp [sortUnique]
  | cons x l ih =>
    have : sortUnique (x :: l) = insertU x (sortUnique l) := rfl
    rw [this, mem_insertU, ih, List.mem_cons]

theorem sortUnique_sorted (l : List K) : (sortUnique l).Pairwise (· < ·) := by
  induction l with
  | nil => simp [sortUnique]
  | cons x l ih => exact insertU_sorted x _ ih

/-- Positions in an ascending list follow the values. -/
theorem sorted_pos {l : List K} (h : l.Pairwise (· < ·)) {a b : Nat} {x y : K}
    (ha : l[a]? = some x) (hb : l[b]? = some y) : x ≤ y ↔ a ≤ b := by
  obtain ⟨h1, rfl⟩ := List.getElem?_eq_some_iff.1 ha
  obtain ⟨h2, rfl⟩ := List.getElem?_eq_some_iff.1 hb
  have hp := List.pairwise_iff_getElem.1 h
  rcases Nat.lt_trichotomy a b with hab | hab | hab
  · exact ⟨fun _ => hab.le, fun _ => (hp a b h1 h2 hab).le⟩
  · subst hab; simp
  · exact ⟨fun hle => absurd (hp b a h2 h1 hab) (not_lt.2 hle), fun hle => by omega⟩

end MoonPIES
