import Mathlib.Tactic.Ring
import Mathlib.Tactic.Linarith
import Verif.Model.IntCols
import Verif.Spec.IntCols

/-!
# Lemmas on columns of whole numbers
-/

namespace MoonPIES

open Spec

set_option linter.unusedSectionVars false

variable {K : Type} [Field K] [LinearOrder K] [IsStrictOrderedRing K] [FloorRing K]

theorem floor_int_sub (x : ℤ) (r : K) : ⌊(x : K) - r⌋ = x - ⌈r⌉ := by
  rw [sub_eq_add_neg, Int.floor_intCast_add, Int.floor_neg, sub_eq_add_neg]

theorem storeInt_nonneg (x : ℤ) (r : K) (h : r ≤ x) : storeInt ((x : K) - r) = x - ⌈r⌉ := by
  unfold storeInt
  rw [if_pos (sub_nonneg.2 h), floor_int_sub]

theorem map_cast_get (l : List ℤ) (n : Nat) : (l.map fun x : ℤ => (x : K))[n]? = l[n]?.map fun x : ℤ => (x : K) := by
  rw [List.getElem?_map]

theorem map_cast_set (l : List ℤ) (n : Nat) (x : ℤ) :
    ((l.set n x).map fun x : ℤ => (x : K)) = (l.map fun x : ℤ => (x : K)).set n (x : K) := by
  rw [List.map_set]

theorem gardenInt_loop (ej : List ℤ) (depth : K) : ∀ (n : Nat) (z : ℤ) (ice : List ℤ),
    asNumbers (gardenIntLoop ej depth 1 n (z : K) ice) =
      gardenLoop (fun x => x) (ej.map fun x : ℤ => (x : K)) (⌈depth⌉ : K) 1 n (z : K) (ice.map fun x : ℤ => (x : K)) := by
  intro n
  induction n with
  | zero => intro z ice; rfl
  | succ n ih =>
    intro z ice
    rw [gardenIntLoop, gardenLoop]
    have hlt : ((z : K) < depth) ↔ ((z : K) < (⌈depth⌉ : K)) := by rw [Int.cast_lt, Int.lt_ceil]
    by_cases h : (z : K) < depth
    · rw [if_pos h, if_pos (hlt.1 h)]
      by_cases hodd : n % 2 = 1
      · rw [if_pos hodd, if_pos hodd, map_cast_get]
        cases ej[n / 2]? with
        | none => rfl
        | some e =>
          dsimp only [Option.map]
          rw [← Int.cast_add]
          exact ih _ _
      · rw [if_neg hodd, if_neg hodd, map_cast_get]
        cases ice[n / 2]? with
        | none => rfl
        | some x =>
          dsimp only [Option.map]
          simp only [mul_one]
          by_cases hx : (z : K) + (x : K) > depth
          · have hs : storeInt ((x : K) - (depth - (z : K))) = z + x - ⌈depth⌉ := by
              rw [storeInt_nonneg _ _ (by linarith), Int.ceil_sub_intCast]
              ring
            rw [if_pos hx, hs]
            by_cases hx' : (z : K) + (x : K) > (⌈depth⌉ : K)
            · rw [if_pos hx', ← Int.cast_add, ih, map_cast_set]
              congr 1
              · push_cast; ring
              · congr 1; push_cast; ring
            · rw [if_neg hx', ← Int.cast_add, ih, map_cast_set]
              have : z + x = ⌈depth⌉ := by
                apply le_antisymm
                · rw [not_lt, ← Int.cast_add, Int.cast_le] at hx'
                  exact hx'
                · rw [Int.ceil_le]
                  push_cast
                  exact hx.le
              rw [this, sub_self, sub_self]
              push_cast
              rfl
          · have hx' : ¬ (z : K) + (x : K) > (⌈depth⌉ : K) := by
              rw [not_lt] at hx ⊢
              exact hx.trans (Int.le_ceil _)
            have hs : storeInt ((x : K) - (x : K)) = 0 := by
              rw [storeInt_nonneg _ _ le_rfl, Int.ceil_intCast, sub_self]
            rw [if_neg hx, if_neg hx', hs, ← Int.cast_add, ih, map_cast_set, sub_self]
            push_cast
            rfl
    · rw [if_neg h, if_neg (fun h' => h (hlt.2 h'))]
      rfl

theorem erodeInt_loop (t base : Int) : ∀ (n : Nat) (ed : K) (ice : List ℤ),
    asNumbers (erodeIntLoop t base n ed ice) =
      erodeLoop (fun x => x) t base n (⌈ed⌉ : K) (ice.map fun x : ℤ => (x : K)) := by
  intro n
  induction n with
  | zero => intro ed ice; rfl
  | succ n ih =>
    intro ed ice
    rw [erodeIntLoop, erodeLoop]
    have hpos : ed > 0 ↔ (⌈ed⌉ : K) > 0 := by
      rw [gt_iff_lt, gt_iff_lt, Int.cast_pos, Int.ceil_pos]
    by_cases h : ed > 0
    · rw [if_pos h, if_pos (hpos.1 h)]
      by_cases hb : t > base
      · rw [if_pos hb, if_pos hb, map_cast_get]
        cases ice[n]? with
        | none => rfl
        | some x =>
          dsimp only [Option.map]
          rw [ih, Int.ceil_sub_intCast, map_cast_set, Int.cast_sub]
          congr 2
          by_cases hx : (x : K) ≥ ed
          · rw [if_pos hx, if_pos (by exact_mod_cast Int.ceil_le.2 hx), storeInt_nonneg _ _ hx, Int.cast_sub]
          · rw [if_neg hx, if_neg (fun h' => hx (Int.ceil_le.1 (by exact_mod_cast h'))), Int.cast_zero]
      · rw [if_neg hb, if_neg hb]; rfl
    · rw [if_neg h, if_neg (fun h' => h (hpos.2 h'))]
      rfl

theorem refInt_loop (t base : Nat) : ∀ (n : Nat) (ed : K) (ice : List ℤ),
    asNumbers (refIntLoop t base n ed ice) =
      refLoop t base n (⌈ed⌉ : K) (ice.map fun x : ℤ => (x : K)) := by
  intro n
  have hpos : ∀ ed : K, ed > 0 ↔ (⌈ed⌉ : K) > 0 := by
    intro ed
    rw [gt_iff_lt, gt_iff_lt, Int.cast_pos, Int.ceil_pos]
  induction n with
  | zero =>
    intro ed ice
    rw [refIntLoop.eq_def, refLoop.eq_def]
    dsimp only
    by_cases h : ed > 0
    · rw [if_pos h, if_pos ((hpos ed).1 h)]
      by_cases hb : t > base
      · rw [if_pos hb, if_pos hb]; rfl
      · rw [if_neg hb, if_neg hb]; rfl
    · rw [if_neg h, if_neg (fun h' => h ((hpos ed).2 h'))]; rfl
  | succ m ih =>
    intro ed ice
    rw [refIntLoop.eq_def, refLoop.eq_def]
    dsimp only
    by_cases h : ed > 0
    · rw [if_pos h, if_pos ((hpos ed).1 h)]
      by_cases hb : t > base
      · rw [if_pos hb, if_pos hb]
        rw [List.length_map]
        generalize (if m ≥ ice.length then m - ice.length else m) = i
        unfold pyGet
        rw [map_cast_get]
        cases ice[i]? with
        | none => rfl
        | some x =>
          simp only [bind, Except.bind, Option.map]
          by_cases hx : (x : K) ≥ ed
          · rw [if_pos hx, if_pos (sub_nonneg.2 hx), if_pos (by exact_mod_cast Int.ceil_le.2 hx), floor_int_sub,
              refIntLoop.eq_def, refLoop.eq_def]
            dsimp only
            rw [if_neg (lt_irrefl _), if_neg (lt_irrefl _), ← Int.cast_sub, ← map_cast_set]
            rfl
          · rw [if_neg hx, if_neg (fun h' => hx (Int.ceil_le.1 (by exact_mod_cast h'))), ih, Int.ceil_sub_intCast,
              map_cast_set, Int.cast_sub, Int.cast_zero]
      · rw [if_neg hb, if_neg hb]; rfl
    · rw [if_neg h, if_neg (fun h' => h ((hpos ed).2 h'))]; rfl

theorem asNumbers_inj : ∀ a b : Except PyErr (List ℤ), asNumbers (K := K) a = asNumbers b → a = b
  | .error e, .error f, h => by injection h with h; rw [h]
  | .error e, .ok b, h => by cases h
  | .ok a, .error f, h => by cases h
  | .ok a, .ok b, h => by
    injection h with h
    rw [List.map_injective_iff.2 Int.cast_injective h]

end MoonPIES
