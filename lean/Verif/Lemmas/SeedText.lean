import Verif.Lemmas.PosixPath
import Verif.Model.Config
import Mathlib.Data.Nat.Digits.Defs

/-!
# The five-digit text of a seed

Different seeds have different texts, and the text is an ordinary file name.
-/

namespace MoonPIES

/-- The number a string of digits stands for. -/
def digitsVal (s : Str) : Nat := Nat.ofDigits 10 (s.reverse.map (fun c => c.toNat - 48))

theorem digitChar_val : ∀ k : Nat, k < 10 → (Nat.digitChar k).toNat - 48 = k := by decide

theorem digitChar_range : ∀ k : Nat, k < 10 → 48 ≤ (Nat.digitChar k).toNat ∧ (Nat.digitChar k).toNat ≤ 57 := by
  decide

theorem digitsVal_decimal (n : Nat) : digitsVal (decimal n) = n := by
  unfold digitsVal decimal
  split
  · rename_i h; subst h; decide
  · simp only [List.map_reverse, List.reverse_reverse, List.map_map]
    have : (Nat.digits 10 n).map ((fun c : Char => c.toNat - 48) ∘ Nat.digitChar) = Nat.digits 10 n := by
      conv_rhs => rw [← List.map_id (Nat.digits 10 n)]
      apply List.map_congr_left
      intro k hk
      exact digitChar_val k (Nat.digits_lt_base (by decide) hk)
    rw [this, Nat.ofDigits_digits]

theorem digitsVal_zeros (k : Nat) (s : Str) : digitsVal (List.replicate k '0' ++ s) = digitsVal s := by
  unfold digitsVal
  rw [List.reverse_append, List.map_append, Nat.ofDigits_append]
  have : ∀ k : Nat, Nat.ofDigits 10 ((List.replicate k '0').reverse.map (fun c : Char => c.toNat - 48)) = 0 := by
    intro k
    rw [List.reverse_replicate, List.map_replicate]
    induction k with
    | zero => rfl
    | succ k ih =>
      rw [List.replicate_succ, Nat.ofDigits_cons, ih]; rfl
  rw [this]; simp

theorem decimal_range (n : Nat) : ∀ c ∈ decimal n, 48 ≤ c.toNat ∧ c.toNat ≤ 57 := by
  unfold decimal
  split
  · decide
  · intro c hc
    obtain ⟨k, hk, rfl⟩ := List.mem_map.1 hc
    exact digitChar_range k (Nat.digits_lt_base (by decide) (List.mem_reverse.1 hk))

theorem decimal_ne_nil (n : Nat) : decimal n ≠ [] := by
  unfold decimal
  split
  · simp
  · rename_i h
    simp [Nat.digits_eq_nil_iff_eq_zero, h]

theorem fmtSeed_chars (n : Int) : ∀ c ∈ fmtSeed n, c = '-' ∨ (48 ≤ c.toNat ∧ c.toNat ≤ 57) := by
  intro c hc
  have hz : ∀ k : Nat, c ∈ List.replicate k '0' → 48 ≤ c.toNat ∧ c.toNat ≤ 57 := by
    intro k h
    rw [List.eq_of_mem_replicate h]
    decide
  unfold fmtSeed at hc
  simp only [] at hc
  split at hc
  · rcases List.mem_append.1 hc with h | h
    · exact Or.inr (hz _ h)
    · exact Or.inr (decimal_range _ c h)
  · rcases List.mem_cons.1 hc with h | h
    · exact Or.inl h
    · rcases List.mem_append.1 h with h | h
      · exact Or.inr (hz _ h)
      · exact Or.inr (decimal_range _ c h)

theorem fmtSeed_ordinary (n : Int) : Ordinary (fmtSeed n) := by
  have hdot : '.' ∉ fmtSeed n := fun h => by
    rcases fmtSeed_chars n _ h with h | h
    · exact absurd h (by decide)
    · exact absurd h (by decide)
  refine ⟨?_, ?_, ?_, ?_⟩
  · unfold fmtSeed
    simp only []
    split <;> simp [decimal_ne_nil]
  · intro e; rw [e] at hdot; simp at hdot
  · intro e; rw [e] at hdot; simp at hdot
  · intro h
    rcases fmtSeed_chars n _ h with h | h
    · exact absurd h (by decide)
    · exact absurd h (by decide)

theorem fmtSeed_tilde (n : Int) : (fmtSeed n).head? ≠ some '~' := by
  intro h
  have := List.mem_of_head? h
  rcases fmtSeed_chars n _ this with h | h
  · exact absurd h (by decide)
  · exact absurd h (by decide)

theorem fmtSeed_head (n : Int) : (fmtSeed n).head? = some '-' ↔ n < 0 := by
  have hpos : 0 ≤ n → '-' ∉ fmtSeed n := by
    intro hn h
    unfold fmtSeed at h
    simp only [] at h
    rw [if_pos hn] at h
    rcases List.mem_append.1 h with h | h
    · exact absurd (List.eq_of_mem_replicate h) (by decide)
    · exact absurd (decimal_range _ _ h) (by decide)
  constructor
  · intro h
    by_contra hn
    exact hpos (by omega) (List.mem_of_head? h)
  · intro h
    unfold fmtSeed
    simp only []
    rw [if_neg (by omega)]
    rfl

/-- Different seeds have different texts. -/
theorem fmtSeed_inj {n m : Int} (h : fmtSeed n = fmtSeed m) : n = m := by
  have hs : n < 0 ↔ m < 0 := by rw [← fmtSeed_head, ← fmtSeed_head, h]
  have hv : ∀ n : Int, 0 ≤ n → digitsVal (fmtSeed n) = n.natAbs := by
    intro n hn
    unfold fmtSeed
    simp only []
    rw [if_pos hn, digitsVal_zeros, digitsVal_decimal]
  have hv' : ∀ n : Int, n < 0 → digitsVal (fmtSeed n).tail = n.natAbs := by
    intro n hn
    unfold fmtSeed
    simp only []
    rw [if_neg (by omega), List.tail_cons, digitsVal_zeros, digitsVal_decimal]
  by_cases hn : n < 0
  · have := hv' n hn
    rw [h, hv' m (hs.1 hn)] at this
    have := hs.1 hn
    omega
  · have := hv n (by omega)
    have hm : ¬ m < 0 := fun h => hn (hs.2 h)
    rw [h, hv m (by omega)] at this
    omega

end MoonPIES
