import Verif.Model.Column
import Verif.Lemmas.Strat
import Mathlib.Tactic.Linarith
import Mathlib.Tactic.FieldSimp
import Mathlib.Tactic.Ring

/-!
# Change of the unit of length: helper lemmas for C127
-/

namespace MoonPIES

variable {K : Type} [Field K] [LinearOrder K] [IsStrictOrderedRing K]

theorem scaled_get (l : K) (xs : List K) (i : Nat) :
    (xs.map (l * ·))[i]? = (xs[i]?).map (l * ·) := List.getElem?_map ..

theorem gardenLoop_scale {fl : K → K} {l : K} (hl : 0 < l) (hfl : ∀ x, fl (l * x) = l * fl x)
    (ej : List K) (depth eff : K) : ∀ (n : Nat) (d : K) (ice : List K),
    gardenLoop fl (ej.map (l * ·)) (l * depth) eff n (l * d) (ice.map (l * ·)) =
      (gardenLoop fl ej depth eff n d ice).map (List.map (l * ·)) := by
  intro n
  induction n with
  | zero => intro d ice; rfl
  | succ n ih =>
    intro d ice
    rw [gardenLoop, gardenLoop]
    by_cases hd : d < depth
    · rw [if_pos hd, if_pos (mul_lt_mul_of_pos_left hd hl)]
      by_cases hp : n % 2 = 1
      · rw [if_pos hp, if_pos hp, scaled_get]
        cases ej[n / 2]? with
        | none => rfl
        | some e =>
          simp only [Option.map_some]
          rw [← mul_add, hfl, ih]
      · rw [if_neg hp, if_neg hp, scaled_get]
        cases ice[n / 2]? with
        | none => rfl
        | some x =>
          simp only [Option.map_some]
          have h1 : fl (l * x * eff) = l * fl (x * eff) := by rw [mul_assoc, hfl]
          have h2 : (if fl (l * d + fl (l * x * eff)) > l * depth then fl (l * depth - l * d)
              else fl (l * x * eff)) =
              l * (if fl (d + fl (x * eff)) > depth then fl (depth - d) else fl (x * eff)) := by
            rw [h1, ← mul_add, ← mul_sub, hfl, hfl]
            by_cases h : fl (d + fl (x * eff)) > depth
            · rw [if_pos h, if_pos (mul_lt_mul_of_pos_left h hl)]
            · rw [if_neg h, if_neg (fun h' => h (lt_of_mul_lt_mul_left h' hl.le))]
          rw [h2, ← mul_sub, hfl, ← mul_add, hfl, ← List.map_set, ih]
    · rw [if_neg hd, if_neg (fun h' => hd (lt_of_mul_lt_mul_left h' hl.le))]
      rfl

theorem shieldIdx_scale {l : K} (hl : 0 < l) (ej : List K) (t : Nat) (shield : K) :
    shieldIdx (ej.map (l * ·)) t (l * shield) = shieldIdx ej t shield := by
  unfold shieldIdx
  rw [← List.map_take, List.length_map]
  congr 1
  funext j
  rw [scaled_get]
  cases ej[j]? with
  | none => rfl
  | some e =>
    simp only [Option.map_some, gt_iff_lt]
    rw [decide_eq_decide]
    exact ⟨fun h => lt_of_mul_lt_mul_left h hl.le, fun h => mul_lt_mul_of_pos_left h hl⟩

theorem erodeLoop_scale {fl : K → K} {l : K} (hl : 0 < l) (hfl : ∀ x, fl (l * x) = l * fl x)
    (t base : Int) : ∀ (n : Nat) (ed : K) (ice : List K),
    erodeLoop fl t base n (l * ed) (ice.map (l * ·)) =
      (erodeLoop fl t base n ed ice).map (List.map (l * ·)) := by
  intro n
  induction n with
  | zero => intro ed ice; rfl
  | succ n ih =>
    intro ed ice
    rw [erodeLoop, erodeLoop]
    by_cases hd : ed > 0
    · rw [if_pos hd, if_pos (mul_pos hl hd)]
      by_cases hb : t > base
      · rw [if_pos hb, if_pos hb, scaled_get]
        cases ice[n]? with
        | none => rfl
        | some x =>
          simp only [Option.map_some]
          have h2 : (if l * x ≥ l * ed then fl (l * x - l * ed) else 0) =
              l * (if x ≥ ed then fl (x - ed) else 0) := by
            rw [← mul_sub, hfl]
            by_cases h : x ≥ ed
            · rw [if_pos h, if_pos (mul_le_mul_of_nonneg_left h hl.le)]
            · rw [if_neg h, if_neg (fun h' => h (le_of_mul_le_mul_left h' hl)), mul_zero]
          rw [h2, ← mul_sub, hfl, ← List.map_set, ih]
      · rw [if_neg hb, if_neg hb]; rfl
    · rw [if_neg hd, if_neg (fun h' => hd (pos_of_mul_pos_right h' hl.le))]
      rfl

theorem updateIceCol_scale {fl : K → K} {l : K} (hl : 0 < l) (hfl : ∀ x, fl (l * x) = l * fl x)
    (shield : K) (costello : Bool) (ice ej : List K) (t : Nat) (ov bd bf : K) :
    updateIceCol fl (l * shield) costello (ice.map (l * ·)) (ej.map (l * ·)) t (l * ov) (l * bd) bf =
      (updateIceCol fl shield costello ice ej t ov bd bf).map (List.map (l * ·)) := by
  have hg : ∀ (ice : List K) (t : Int) (d e : K),
      gardenIceColumn fl (ice.map (l * ·)) (ej.map (l * ·)) t (l * d) e =
        (gardenIceColumn fl ice ej t d e).map (List.map (l * ·)) := by
    intro ice t d e
    have h := gardenLoop_scale hl hfl ej d e (2 * t + 2).toNat 0 ice
    rw [mul_zero] at h
    exact h
  unfold updateIceCol
  rw [hg]
  cases gardenIceColumn fl ice ej ((t : Int) - 1) bd bf with
  | error e => rfl
  | ok ice1 =>
    change removeIceOverturn fl (l * shield) costello (ice1.map (l * ·)) (ej.map (l * ·)) t (l * ov) =
      (removeIceOverturn fl shield costello ice1 ej t ov).map (List.map (l * ·))
    unfold removeIceOverturn
    cases costello with
    | true => exact hg ice1 t ov 1
    | false =>
      change erodeIceCannon fl (ice1.map (l * ·)) (ej.map (l * ·)) t (l * ov) (l * shield) =
        (erodeIceCannon fl ice1 ej t ov shield).map (List.map (l * ·))
      unfold erodeIceCannon erosionBase
      rw [shieldIdx_scale hl]
      exact erodeLoop_scale hl hfl _ _ _ _ _

end MoonPIES
