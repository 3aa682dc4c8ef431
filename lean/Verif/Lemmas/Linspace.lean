import Verif.Model.TimeArray
import Mathlib.Tactic.Linarith
import Mathlib.Tactic.FieldSimp
import Mathlib.Tactic.Ring
import Mathlib.Tactic.Positivity
import Mathlib.Tactic.NormNum

/-!
# Facts about `np.linspace`
-/

namespace MoonPIES

variable {K : Type} [Field K] [LinearOrder K] [IsStrictOrderedRing K] [FloorRing K]

/-- For two or more points: the explicit list. -/
theorem linspace_eq (a b : K) (n : Nat) (hn : 2 ≤ n) :
    linspace a b (n : Int) = .ok ((List.range n).map
      (fun i : Nat => a + (i : K) * ((b - a) / ((n : K) - 1)))) := by
  unfold linspace
  rw [if_neg (by omega), if_neg (by omega)]
  simp

theorem linspace_get (a b : K) (n : Nat) (hn : 2 ≤ n) (l : List K)
    (h : linspace a b (n : Int) = .ok l) :
    l.length = n ∧ ∀ i, i < n → l[i]? = some (a + (i : K) * ((b - a) / ((n : K) - 1))) := by
  rw [linspace_eq a b n hn, Except.ok.injEq] at h
  subst h
  refine ⟨by simp, ?_⟩
  intro i hi
  simp [hi]

theorem linspace_asc (a b : K) (n : Nat) (hn : 2 ≤ n) (hab : a < b) (l : List K)
    (h : linspace a b (n : Int) = .ok l) : l.Pairwise (· < ·) := by
  rw [linspace_eq a b n hn, Except.ok.injEq] at h
  subst h
  rw [List.pairwise_map]
  refine List.pairwise_lt_range.imp ?_
  intro i j hij
  have h2 : (2 : K) ≤ n := by exact_mod_cast hn
  have hs : 0 < (b - a) / ((n : K) - 1) := div_pos (by linarith) (by linarith)
  have hc : (i : K) < j := by exact_mod_cast hij
  have := mul_lt_mul_of_pos_right hc hs
  linarith

theorem linspace_bounds (a b : K) (n : Nat) (hn : 2 ≤ n) (hab : a ≤ b) (l : List K)
    (h : linspace a b (n : Int) = .ok l) (x : K) (hx : x ∈ l) : a ≤ x ∧ x ≤ b := by
  rw [linspace_eq a b n hn, Except.ok.injEq] at h
  subst h
  rw [List.mem_map] at hx
  obtain ⟨i, hi, rfl⟩ := hx
  rw [List.mem_range] at hi
  have h2 : (2 : K) ≤ n := by exact_mod_cast hn
  have hp : (0 : K) < (n : K) - 1 := by linarith
  have hi' : (i : K) ≤ (n : K) - 1 := by
    have : i + 1 ≤ n := hi
    have : ((i + 1 : Nat) : K) ≤ n := by exact_mod_cast this
    push_cast at this; linarith
  have h0 : (0 : K) ≤ i := Nat.cast_nonneg i
  have hs : 0 ≤ (b - a) / ((n : K) - 1) := div_nonneg (by linarith) hp.le
  constructor
  · have := mul_nonneg h0 hs; linarith
  · have := mul_le_mul_of_nonneg_right hi' hs
    have e : ((n : K) - 1) * ((b - a) / ((n : K) - 1)) = b - a := by field_simp
    linarith

theorem linspace_last (a b : K) (n : Nat) (hn : 2 ≤ n) (l : List K)
    (h : linspace a b (n : Int) = .ok l) : l[0]? = some a ∧ l[n - 1]? = some b := by
  obtain ⟨_, hg⟩ := linspace_get a b n hn l h
  refine ⟨?_, ?_⟩
  · rw [hg 0 (by omega)]; simp
  · rw [hg (n - 1) (by omega)]
    have h2 : (2 : K) ≤ n := by exact_mod_cast hn
    have e : ((n - 1 : Nat) : K) = (n : K) - 1 := by
      rw [Nat.cast_sub (by omega)]; simp
    have hne : (n : K) - 1 ≠ 0 := by linarith
    rw [e]
    congr 1
    field_simp
    ring

end MoonPIES
