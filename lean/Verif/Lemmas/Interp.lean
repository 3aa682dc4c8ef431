import Verif.Model.Interp
import Mathlib.Tactic.Linarith
import Mathlib.Tactic.FieldSimp
import Mathlib.Tactic.Ring
import Mathlib.Tactic.Positivity

/-!
# Facts about linear interpolation on ascending knots
-/

namespace MoonPIES

variable {K : Type} [Field K] [LinearOrder K] [IsStrictOrderedRing K]

/-- Knots with strictly ascending abscissae. -/
def KnotsAsc (l : List (K × K)) : Prop := l.Pairwise (fun a b => a.1 < b.1)

/-- Knots with non-decreasing values. -/
def KnotsMono (l : List (K × K)) : Prop := l.Pairwise (fun a b => a.2 ≤ b.2)

theorem seg_between (x x0 f0 x1 f1 : K) (h0 : x0 ≤ x) (h1 : x < x1) :
    ∃ w, 0 ≤ w ∧ w < 1 ∧ f0 + (f1 - f0) / (x1 - x0) * (x - x0) = (1 - w) * f0 + w * f1 := by
  have hp : 0 < x1 - x0 := by linarith
  refine ⟨(x - x0) / (x1 - x0), div_nonneg (by linarith) hp.le, ?_, ?_⟩
  · rw [div_lt_one hp]; linarith
  · field_simp; ring

/-- The result is at least any lower bound of the values. -/
theorem interpFrom_ge (x lo : K) (rest : List (K × K)) : ∀ x0 f0 : K, x0 ≤ x → lo ≤ f0 →
    (∀ p ∈ rest, lo ≤ p.2) → lo ≤ interpFrom x x0 f0 rest := by
  induction rest with
  | nil => intro x0 f0 _ h _; exact h
  | cons p rest ih =>
    obtain ⟨x1, f1⟩ := p
    intro x0 f0 h0 hf hall
    have hf1 : lo ≤ f1 := hall (x1, f1) (by simp)
    unfold interpFrom
    split_ifs with h
    · obtain ⟨w, w0, w1, e⟩ := seg_between x x0 f0 x1 f1 h0 h
      rw [e]; nlinarith
    · exact ih x1 f1 (not_lt.1 h) hf1 (fun p hp => hall p (by simp [hp]))

theorem interpFrom_le (x hi : K) (rest : List (K × K)) : ∀ x0 f0 : K, x0 ≤ x → f0 ≤ hi →
    (∀ p ∈ rest, p.2 ≤ hi) → interpFrom x x0 f0 rest ≤ hi := by
  induction rest with
  | nil => intro x0 f0 _ h _; exact h
  | cons p rest ih =>
    obtain ⟨x1, f1⟩ := p
    intro x0 f0 h0 hf hall
    have hf1 : f1 ≤ hi := hall (x1, f1) (by simp)
    unfold interpFrom
    split_ifs with h
    · obtain ⟨w, w0, w1, e⟩ := seg_between x x0 f0 x1 f1 h0 h
      rw [e]; nlinarith
    · exact ih x1 f1 (not_lt.1 h) hf1 (fun p hp => hall p (by simp [hp]))

/-- `np.interp` stays within any bounds of the tabulated values. -/
theorem npInterp_between (x lo hi y : K) (l : List (K × K)) (h : npInterp x l = some y)
    (hl : ∀ p ∈ l, lo ≤ p.2 ∧ p.2 ≤ hi) : lo ≤ y ∧ y ≤ hi := by
  cases l with
  | nil => simp [npInterp] at h
  | cons p rest =>
    obtain ⟨x0, f0⟩ := p
    simp only [npInterp, Option.some.injEq] at h
    have h0 := hl (x0, f0) (by simp)
    subst h
    split_ifs with hx
    · exact h0
    · exact ⟨interpFrom_ge x lo rest x0 f0 (not_lt.1 hx) h0.1 (fun p hp => (hl p (by simp [hp])).1),
        interpFrom_le x hi rest x0 f0 (not_lt.1 hx) h0.2 (fun p hp => (hl p (by simp [hp])).2)⟩

theorem interpFrom_mono (x y : K) (hxy : x ≤ y) (rest : List (K × K)) : ∀ x0 f0 : K, x0 ≤ x →
    KnotsMono ((x0, f0) :: rest) →
    interpFrom x x0 f0 rest ≤ interpFrom y x0 f0 rest := by
  induction rest with
  | nil => intro x0 f0 _ _; exact le_refl _
  | cons p rest ih =>
    obtain ⟨x1, f1⟩ := p
    intro x0 f0 h0 hm
    have hm' := hm
    unfold KnotsMono at hm
    rw [List.pairwise_cons] at hm
    have h01 : f0 ≤ f1 := hm.1 (x1, f1) (by simp)
    unfold interpFrom
    by_cases hx : x < x1
    · by_cases hy : y < x1
      · rw [if_pos hx, if_pos hy]
        have hp : 0 < x1 - x0 := by linarith
        have hs : 0 ≤ (f1 - f0) / (x1 - x0) := div_nonneg (by linarith) hp.le
        have := mul_le_mul_of_nonneg_left (show x - x0 ≤ y - x0 by linarith) hs
        linarith
      · rw [if_pos hx, if_neg hy]
        obtain ⟨w, w0, w1, e⟩ := seg_between x x0 f0 x1 f1 h0 hx
        have h2 : f1 ≤ interpFrom y x1 f1 rest := by
          have := (List.pairwise_cons.1 hm.2).1
          exact interpFrom_ge y f1 rest x1 f1 (not_lt.1 hy) (le_refl _) (fun p hp => this p hp)
        rw [e]; nlinarith
    · have hy : ¬ y < x1 := not_lt.2 ((not_lt.1 hx).trans hxy)
      rw [if_neg hx, if_neg hy]
      exact ih x1 f1 (not_lt.1 hx) hm.2

/-- `np.interp` is non-decreasing when the tabulated values are. -/
theorem npInterp_mono (x y a b : K) (l : List (K × K)) (hxy : x ≤ y) (hm : KnotsMono l)
    (ha : npInterp x l = some a) (hb : npInterp y l = some b) : a ≤ b := by
  cases l with
  | nil => simp [npInterp] at ha
  | cons p rest =>
    obtain ⟨x0, f0⟩ := p
    simp only [npInterp, Option.some.injEq] at ha hb
    rw [← ha, ← hb]
    have hall : ∀ p ∈ rest, f0 ≤ p.2 := (List.pairwise_cons.1 hm).1
    by_cases hx : x < x0
    · rw [if_pos hx]
      by_cases hy : y < x0
      · rw [if_pos hy]
      · rw [if_neg hy]
        exact interpFrom_ge y f0 rest x0 f0 (not_lt.1 hy) (le_refl _) hall
    · rw [if_neg hx, if_neg (not_lt.2 ((not_lt.1 hx).trans hxy))]
      exact interpFrom_mono x y hxy rest x0 f0 (not_lt.1 hx) hm

theorem interpFrom_knot (rest : List (K × K)) : ∀ x0 f0 : K,
    KnotsAsc ((x0, f0) :: rest) → ∀ p ∈ (x0, f0) :: rest, interpFrom p.1 x0 f0 rest = p.2 := by
  induction rest with
  | nil =>
    intro x0 f0 _ p hp
    rw [List.mem_singleton] at hp
    subst hp; rfl
  | cons q rest ih =>
    obtain ⟨x1, f1⟩ := q
    intro x0 f0 ha p hp
    have ha' := List.pairwise_cons.1 ha
    unfold interpFrom
    rcases List.mem_cons.1 hp with rfl | hp
    · rw [if_pos (ha'.1 (x1, f1) (by simp))]; simp
    · have hx : x1 ≤ p.1 := by
        rcases List.mem_cons.1 hp with rfl | hp'
        · exact le_refl _
        · exact ((List.pairwise_cons.1 ha'.2).1 p hp').le
      rw [if_neg (not_lt.2 hx)]
      exact ih x1 f1 ha'.2 p hp

/-- `np.interp` is exact at the knots. -/
theorem npInterp_knot (l : List (K × K)) (ha : KnotsAsc l) (p : K × K) (hp : p ∈ l) :
    npInterp p.1 l = some p.2 := by
  cases l with
  | nil => simp at hp
  | cons q rest =>
    obtain ⟨x0, f0⟩ := q
    simp only [npInterp, Option.some.injEq]
    have hx : x0 ≤ p.1 := by
      rcases List.mem_cons.1 hp with rfl | hp'
      · exact le_refl _
      · exact ((List.pairwise_cons.1 ha).1 p hp').le
    rw [if_neg (not_lt.2 hx)]
    exact interpFrom_knot rest x0 f0 ha p hp

theorem interpFrom_cell (x : K) (rest : List (K × K)) : ∀ x0 f0 : K,
    KnotsAsc ((x0, f0) :: rest) → x0 ≤ x → ∀ (i : Nat) (p q : K × K),
      ((x0, f0) :: rest)[i]? = some p → ((x0, f0) :: rest)[i + 1]? = some q → p.1 ≤ x → x < q.1 →
      interpFrom x x0 f0 rest = p.2 + (q.2 - p.2) / (q.1 - p.1) * (x - p.1) := by
  induction rest with
  | nil => intro x0 f0 _ _ i p q _ hq; simp at hq
  | cons r rest ih =>
    obtain ⟨x1, f1⟩ := r
    intro x0 f0 ha h0 i p q hp hq h1 h2
    have ha' := List.pairwise_cons.1 ha
    unfold interpFrom
    cases i with
    | zero =>
      simp only [List.getElem?_cons_zero, Option.some.injEq, Nat.zero_add,
        List.getElem?_cons_succ] at hp hq
      subst hp; subst hq
      rw [if_pos h2]
    | succ i =>
      rw [List.getElem?_cons_succ] at hp hq
      have hx : x1 ≤ p.1 := by
        rcases List.mem_cons.1 (List.mem_of_getElem? hp) with rfl | hp'
        · exact le_refl _
        · exact ((List.pairwise_cons.1 ha'.2).1 p hp').le
      rw [if_neg (not_lt.2 (hx.trans h1))]
      exact ih x1 f1 ha'.2 (hx.trans h1) i p q hp hq h1 h2

/-- Between consecutive knots `np.interp` is the chord. -/
theorem npInterp_cell (x : K) (l : List (K × K)) (ha : KnotsAsc l) (i : Nat) (p q : K × K)
    (hp : l[i]? = some p) (hq : l[i + 1]? = some q) (h1 : p.1 ≤ x) (h2 : x < q.1) :
    npInterp x l = some (p.2 + (q.2 - p.2) / (q.1 - p.1) * (x - p.1)) := by
  cases l with
  | nil => simp at hp
  | cons r rest =>
    obtain ⟨x0, f0⟩ := r
    have hx : x0 ≤ p.1 := by
      rcases List.mem_cons.1 (List.mem_of_getElem? hp) with rfl | hp'
      · exact le_refl _
      · exact ((List.pairwise_cons.1 ha).1 p hp').le
    simp only [npInterp, Option.some.injEq]
    rw [if_neg (not_lt.2 (hx.trans h1))]
    exact interpFrom_cell x rest x0 f0 ha (hx.trans h1) i p q hp hq h1 h2

end MoonPIES
