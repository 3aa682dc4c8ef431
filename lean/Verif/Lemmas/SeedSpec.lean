import Verif.Lemmas.SeedText
import Verif.Spec.Config
import Mathlib.Data.Nat.Digits.Lemmas

/-!
# The text of a seed, as specified

There is exactly one text of a seed, and it is the one the code writes.
-/

namespace MoonPIES

open Spec

theorem readDigits_eq (t : Str) : readDigits t = digitsVal t := by
  have key : ∀ (t : Str) (v : Nat), t.foldl (fun v c => 10 * v + (c.toNat - '0'.toNat)) v =
      10 ^ t.length * v + digitsVal t := by
    intro t
    induction t with
    | nil => intro v; simp [digitsVal]
    | cons c t ih =>
      intro v
      rw [List.foldl_cons, ih]
      have : digitsVal (c :: t) = digitsVal t + 10 ^ t.length * (c.toNat - 48) := by
        unfold digitsVal
        rw [List.reverse_cons, List.map_append, Nat.ofDigits_append]
        simp
      rw [this, show '0'.toNat = 48 from rfl, List.length_cons]
      ring
  have := key t 0
  simpa [readDigits] using this

theorem seedText_fmt (n : Int) : SeedText n (fmtSeed n) := by
  have hd : ∀ k m : Nat, ∀ c ∈ List.replicate k '0' ++ decimal m, '0' ≤ c ∧ c ≤ '9' := by
    intro k m c hc
    have : 48 ≤ c.toNat ∧ c.toNat ≤ 57 := by
      rcases List.mem_append.1 hc with h | h
      · rw [List.eq_of_mem_replicate h]; decide
      · exact decimal_range _ c h
    exact ⟨this.1, this.2⟩
  have hv : ∀ k m : Nat, readDigits (List.replicate k '0' ++ decimal m) = m := by
    intro k m
    rw [readDigits_eq, digitsVal_zeros, digitsVal_decimal]
  have hh : ∀ m : Nat, 1 < (decimal m).length → (decimal m).head? ≠ some '0' := by
    intro m h1 h
    unfold decimal at h h1
    split at h
    · rename_i e; rw [if_pos e] at h1; simp at h1
    · rename_i e
      rw [List.head?_map, List.head?_reverse] at h
      have hne : Nat.digits 10 m ≠ [] := Nat.digits_ne_nil_iff_ne_zero.2 e
      rw [List.getLast?_eq_some_getLast hne] at h
      simp only [Option.map_some, Option.some.injEq] at h
      have l1 := Nat.getLast_digit_ne_zero 10 e
      have l2 := Nat.digits_lt_base (by decide : 1 < 10) (List.getLast_mem hne)
      generalize (Nat.digits 10 m).getLast _ = k at h l1 l2
      have : ∀ k : Nat, k < 10 → Nat.digitChar k = '0' → k = 0 := by decide
      exact l1 (this k l2 h)
  unfold fmtSeed
  simp only []
  by_cases hn : 0 ≤ n
  · rw [if_pos hn]
    refine ⟨_, by rw [if_neg (by omega)]; rfl, by simp [decimal_ne_nil], hd _ _, hv _ _, ?_, ?_⟩
    · simp; omega
    · intro h
      rw [List.length_append, List.length_replicate] at h
      rw [show 5 - (decimal n.natAbs).length = 0 by omega]
      exact hh _ (by omega)
  · rw [if_neg hn]
    refine ⟨List.replicate (4 - (decimal n.natAbs).length) '0' ++ decimal n.natAbs,
      by rw [if_pos (by omega)]; rfl, by simp [decimal_ne_nil], hd _ _, hv _ _, ?_, ?_⟩
    · simp; omega
    · intro h
      rw [List.length_cons, List.length_append, List.length_replicate] at h
      rw [show 4 - (decimal n.natAbs).length = 0 by omega]
      exact hh _ (by omega)

/-- The text of a seed is determined. -/
theorem seedText_unique {n : Int} {t t' : Str} (h : SeedText n t) (h' : SeedText n t') : t = t' := by
  obtain ⟨ds, rfl, h0, h1, h2, h3, h4⟩ := h
  obtain ⟨ds', rfl, h0', h1', h2', h3', h4'⟩ := h'
  have lt : ∀ ds : Str, (∀ c ∈ ds, '0' ≤ c ∧ c ≤ '9') → digitsVal ds < 10 ^ ds.length := by
    intro ds h
    have := Nat.ofDigits_lt_base_pow_length (b := 10) (l := ds.reverse.map (fun c => c.toNat - 48))
      (by decide) (by
        intro x hx
        obtain ⟨c, hc, rfl⟩ := List.mem_map.1 hx
        have := (h c (List.mem_reverse.1 hc)).2
        have : c.toNat ≤ 57 := this
        omega)
    simpa [digitsVal] using this
  have ge : ∀ ds : Str, ds ≠ [] → (∀ c ∈ ds, '0' ≤ c ∧ c ≤ '9') → ds.head? ≠ some '0' →
      10 ^ (ds.length - 1) ≤ digitsVal ds := by
    intro ds h0 h1 h2
    cases ds with
    | nil => exact absurd rfl h0
    | cons c t =>
      have e : digitsVal (c :: t) = digitsVal t + 10 ^ t.length * (c.toNat - 48) := by
        unfold digitsVal
        rw [List.reverse_cons, List.map_append, Nat.ofDigits_append]
        simp
      have hc : 48 ≤ c.toNat := (h1 c (by simp)).1
      have hc' : c.toNat ≠ 48 := by
        intro e
        apply h2
        have : c = '0' := Char.ext (UInt32.toNat_inj.1 e)
        simp [this]
      rw [e, List.length_cons, Nat.add_sub_cancel]
      have : 10 ^ t.length * 1 ≤ 10 ^ t.length * (c.toNat - 48) := Nat.mul_le_mul_left _ (by omega)
      omega
  rw [readDigits_eq] at h2 h2'
  have hlen : ds.length = ds'.length := by
    have key : ∀ ds ds' : Str, ds ≠ [] → ds' ≠ [] → (∀ c ∈ ds, '0' ≤ c ∧ c ≤ '9') → (∀ c ∈ ds', '0' ≤ c ∧ c ≤ '9') →
        digitsVal ds = digitsVal ds' → (ds.length < ds'.length → ds'.head? ≠ some '0') →
        ¬ ds.length < ds'.length := by
      intro ds ds' h0 h0' h1 h1' h2 h4' hl
      have a := lt ds h1
      have b := ge ds' h0' h1' (h4' hl)
      have : 10 ^ ds.length ≤ 10 ^ (ds'.length - 1) := Nat.pow_le_pow_right (by decide) (by omega)
      omega
    have k1 := key ds ds' h0 h0' h1 h1' (h2.trans h2'.symm) (fun hl => h4' (by
      rw [List.length_append] at h3 ⊢; omega))
    have k2 := key ds' ds h0' h0 h1' h1 (h2'.trans h2.symm) (fun hl => h4 (by
      rw [List.length_append] at h3' ⊢; omega))
    omega
  have hmap : ds.reverse.map (fun c => c.toNat - 48) = ds'.reverse.map (fun c => c.toNat - 48) := by
    apply Nat.ofDigits_inj_of_len_eq (b := 10) (by decide) (by simpa using hlen)
    · intro x hx
      obtain ⟨c, hc, rfl⟩ := List.mem_map.1 hx
      have : c.toNat ≤ 57 := (h1 c (List.mem_reverse.1 hc)).2
      omega
    · intro x hx
      obtain ⟨c, hc, rfl⟩ := List.mem_map.1 hx
      have : c.toNat ≤ 57 := (h1' c (List.mem_reverse.1 hc)).2
      omega
    · exact h2.trans h2'.symm
  congr 1
  rw [List.map_reverse, List.map_reverse, List.reverse_inj] at hmap
  clear h2 h2' h3 h3' h4 h4' h0 h0'
  induction ds generalizing ds' with
  | nil => cases ds' with
    | nil => rfl
    | cons => simp at hlen
  | cons c t ih => cases ds' with
    | nil => simp at hlen
    | cons c' t' =>
      simp only [List.map_cons, List.cons.injEq] at hmap
      have a : 48 ≤ c.toNat := (h1 c (by simp)).1
      have b : 48 ≤ c'.toNat := (h1' c' (by simp)).1
      have e : c = c' := Char.ext (UInt32.toNat_inj.1 (by
        have := hmap.1
        have : c.toNat = c'.toNat := by omega
        exact this))
      rw [e, ih (fun c hc => h1 c (by simp [hc])) t' (fun c hc => h1' c (by simp [hc])) (by simpa using hlen) hmap.2]

theorem seedText_iff {n : Int} {t : Str} : SeedText n t ↔ t = fmtSeed n :=
  ⟨fun h => seedText_unique h (seedText_fmt n), fun h => h ▸ seedText_fmt n⟩
end MoonPIES
