import Mathlib.Algebra.Order.Field.Basic
import Mathlib.Algebra.BigOperators.Group.List.Lemmas
import Mathlib.Algebra.Order.BigOperators.Group.List
import Mathlib.Data.List.Forall2
import Mathlib.Tactic.Linarith
import Mathlib.Tactic.Ring
import Verif.Model.Column
import Verif.Spec.Column

/-!
# Lemmas about the column loops
-/

namespace MoonPIES

open Spec

set_option linter.unusedSectionVars false

variable {K : Type} [Field K] [LinearOrder K]

/-- Two turns of the gardening loop: the ejecta and then the ice of layer `k`. -/
theorem gardenLoop_layer (fl : K → K) (ej : List K) (depth eff : K) (k : Nat) (d : K)
    (ice : List K) :
    gardenLoop fl ej depth eff (2 * (k + 1)) d ice =
      if d < depth then
        match ej[k]? with
        | none => .error .indexError
        | some e =>
          if fl (d + e) < depth then
            match ice[k]? with
            | none => .error .indexError
            | some x =>
              let removed := fl (x * eff)
              let removed := if fl (fl (d + e) + removed) > depth then fl (depth - fl (d + e))
                else removed
              let x' := fl (x - removed)
              gardenLoop fl ej depth eff (2 * k) (fl (fl (d + e) + x')) (ice.set k x')
          else .ok ice
      else .ok ice := by
  have h1 : 2 * (k + 1) = (2 * k + 1) + 1 := by omega
  have h2 : (2 * k + 1) % 2 = 1 := by omega
  have h3 : (2 * k + 1) / 2 = k := by omega
  have h4 : ¬ (2 * k) % 2 = 1 := by omega
  have h5 : (2 * k) / 2 = k := by omega
  rw [h1, gardenLoop]
  simp only [h2, h3, if_true]
  cases ej[k]? with
  | none => rfl
  | some e =>
    simp only [gardenLoop, h4, h5, if_false]
    rfl

theorem forall₂_iff_getElem? {α β : Type} {R : α → β → Prop} {l : List α} {l' : List β} :
    List.Forall₂ R l l' ↔ l.length = l'.length ∧
      ∀ (i : Nat) x x', l[i]? = some x → l'[i]? = some x' → R x x' := by
  constructor
  · intro h
    refine ⟨h.length_eq, ?_⟩
    induction h with
    | nil => simp
    | @cons a b l₁ l₂ hab _ ih =>
      intro i x x' hx hx'
      cases i with
      | zero => simp at hx hx'; subst hx hx'; exact hab
      | succ i => simp at hx hx'; exact ih i x x' hx hx'
  · rintro ⟨hlen, h⟩
    induction l generalizing l' with
    | nil => cases l' with
      | nil => exact .nil
      | cons _ _ => simp at hlen
    | cons a l ih => cases l' with
      | nil => simp at hlen
      | cons b l' =>
        refine .cons (h 0 a b (by simp) (by simp)) (ih (by simpa using hlen) ?_)
        intro i x x' hx hx'
        exact h (i + 1) x x' (by simpa using hx) (by simpa using hx')

section Totality

theorem gardenLoop_total (fl : K → K) (ej : List K) (depth eff : K) :
    ∀ (k : Nat) (d : K) (ice : List K), k ≤ ej.length → k ≤ ice.length →
      ∃ ice', gardenLoop fl ej depth eff (2 * k) d ice = .ok ice' := by
  intro k
  induction k with
  | zero => intro d ice _ _; exact ⟨ice, rfl⟩
  | succ k ih =>
    intro d ice hej hice
    rw [gardenLoop_layer]
    have h1 : ej[k]? = some (ej[k]'(by omega)) := List.getElem?_eq_getElem (by omega)
    have h2 : ice[k]? = some (ice[k]'(by omega)) := List.getElem?_eq_getElem (by omega)
    rw [h1, h2]
    split
    · dsimp only
      split
      · apply ih
        · omega
        · simp; omega
      · exact ⟨_, rfl⟩
    · exact ⟨_, rfl⟩

/-- The loop keeps the length and the layers from `k` on. -/
theorem gardenLoop_frame (fl : K → K) (ej : List K) (depth eff : K) :
    ∀ (k : Nat) (d : K) (ice ice' : List K),
      gardenLoop fl ej depth eff (2 * k) d ice = .ok ice' →
      ice'.length = ice.length ∧ ∀ i, k ≤ i → ice'[i]? = ice[i]? := by
  intro k
  induction k with
  | zero => intro d ice ice' h; simp [gardenLoop] at h; subst h; simp
  | succ k ih =>
    intro d ice ice' h
    rw [gardenLoop_layer] at h
    split at h
    · split at h
      · cases h
      · split at h
        · split at h
          · cases h
          · obtain ⟨h1, h2⟩ := ih _ _ _ h
            refine ⟨by simpa using h1, ?_⟩
            intro i hi
            rw [h2 i (by omega), List.getElem?_set_ne (by omega)]
        · cases h; simp
    · cases h; simp

theorem erodeLoop_total (fl : K → K) (t base : Int) :
    ∀ (k : Nat) (ed : K) (ice : List K), k ≤ ice.length →
      ∃ ice', erodeLoop fl t base k ed ice = .ok ice' := by
  intro k
  induction k with
  | zero => intro d ice _; exact ⟨ice, rfl⟩
  | succ k ih =>
    intro d ice hice
    rw [erodeLoop]
    have h2 : ice[k]? = some (ice[k]'(by omega)) := List.getElem?_eq_getElem (by omega)
    rw [h2]
    split
    · split
      · dsimp only
        apply ih
        simp; omega
      · exact ⟨_, rfl⟩
    · exact ⟨_, rfl⟩

theorem erodeLoop_frame (fl : K → K) (t base : Int) :
    ∀ (k : Nat) (ed : K) (ice ice' : List K),
      erodeLoop fl t base k ed ice = .ok ice' →
      ice'.length = ice.length ∧ ∀ i, k ≤ i → ice'[i]? = ice[i]? := by
  intro k
  induction k with
  | zero => intro d ice ice' h; simp [erodeLoop] at h; subst h; simp
  | succ k ih =>
    intro d ice ice' h
    rw [erodeLoop] at h
    split at h
    · split at h
      · split at h
        · cases h
        · obtain ⟨h1, h2⟩ := ih _ _ _ h
          refine ⟨by simpa using h1, ?_⟩
          intro i hi
          rw [h2 i (by omega), List.getElem?_set_ne (by omega)]
      · cases h; simp
    · cases h; simp

end Totality

section Safety

variable [IsStrictOrderedRing K]

theorem onlyLoses_refl {l : List K} (h : ∀ x ∈ l, 0 ≤ x) : OnlyLosesIce l l := by
  unfold OnlyLosesIce
  rw [forall₂_iff_getElem?]
  refine ⟨rfl, ?_⟩
  intro i x x' hx hx'
  rw [hx] at hx'; cases hx'
  exact ⟨h x (List.mem_of_getElem? hx), le_refl _⟩

theorem onlyLoses_trans {a b c : List K} (h1 : OnlyLosesIce a b) (h2 : OnlyLosesIce b c) :
    OnlyLosesIce a c := by
  unfold OnlyLosesIce at *
  rw [forall₂_iff_getElem?] at *
  refine ⟨h1.1.trans h2.1, ?_⟩
  intro i x z hx hz
  have hlt : i < b.length := by
    have := (List.getElem?_eq_some_iff.1 hx).1
    rw [← h1.1]; exact this
  have hy : b[i]? = some b[i] := List.getElem?_eq_getElem hlt
  have := h1.2 i x _ hx hy
  have h' := h2.2 i _ z hy hz
  exact ⟨h'.1, h'.2.trans this.2⟩

theorem onlyLoses_set {l : List K} (h : ∀ x ∈ l, 0 ≤ x) {k : Nat} {x x' : K}
    (hx : l[k]? = some x) (h0 : 0 ≤ x') (h1 : x' ≤ x) : OnlyLosesIce l (l.set k x') := by
  unfold OnlyLosesIce
  rw [forall₂_iff_getElem?]
  refine ⟨by simp, ?_⟩
  intro i y y' hy hy'
  by_cases hik : k = i
  · subst hik
    rw [hx] at hy; cases hy
    rw [List.getElem?_set_self (List.getElem?_eq_some_iff.1 hx).1] at hy'
    cases hy'
    exact ⟨h0, h1⟩
  · rw [List.getElem?_set_ne hik] at hy'
    rw [hy] at hy'; cases hy'
    exact ⟨h y (List.mem_of_getElem? hy), le_refl _⟩

theorem onlyLoses_nonneg {l l' : List K} (h : OnlyLosesIce l l') : ∀ x ∈ l', 0 ≤ x := by
  unfold OnlyLosesIce at h
  induction h with
  | nil => simp
  | cons h _ ih =>
    intro x hx
    rcases List.mem_cons.1 hx with rfl | hx
    · exact h.1
    · exact ih x hx

/-- The amount taken from a layer lies between 0 and the layer, under rounding. -/
theorem removed_bounds {fl : K → K} (hfl : Rounding fl) {x eff d depth : K}
    (hx0 : 0 ≤ x) (hx : Repr fl x) (he0 : 0 ≤ eff) (he1 : eff ≤ 1)
    (hd : Repr fl depth) (hlt : d < depth) :
    0 ≤ (if fl (d + fl (x * eff)) > depth then fl (depth - d) else fl (x * eff)) ∧
    (if fl (d + fl (x * eff)) > depth then fl (depth - d) else fl (x * eff)) ≤ x := by
  have hr0 : 0 ≤ fl (x * eff) := by
    have := hfl.mono (mul_nonneg hx0 he0); rwa [hfl.zero] at this
  have hr1 : fl (x * eff) ≤ x := by
    have := hfl.mono (mul_le_of_le_one_right hx0 he1); rwa [hx] at this
  split
  · rename_i hgt
    have h1 : d + fl (x * eff) > depth := by
      by_contra hcon
      have := hfl.mono (not_lt.1 hcon)
      rw [hd] at this
      exact absurd hgt (not_lt.2 this)
    constructor
    · have := hfl.mono (sub_nonneg.2 hlt.le); rwa [hfl.zero] at this
    · have h2 : depth - d ≤ fl (x * eff) := by linarith
      have := hfl.mono h2
      rw [hfl.idem] at this
      exact this.trans hr1
  · exact ⟨hr0, hr1⟩

theorem left_bounds {fl : K → K} (hfl : Rounding fl) {x r : K} (hx : Repr fl x)
    (h0 : 0 ≤ r) (h1 : r ≤ x) : 0 ≤ fl (x - r) ∧ fl (x - r) ≤ x := by
  constructor
  · have := hfl.mono (sub_nonneg.2 h1); rwa [hfl.zero] at this
  · have := hfl.mono (sub_le_self x h0); rwa [hx] at this

theorem repr_set {fl : K → K} (hfl : Rounding fl) {l : List K} (h : ∀ x ∈ l, Repr fl x)
    (k : Nat) (y : K) : ∀ x ∈ l.set k (fl y), Repr fl x := by
  intro x hx
  rcases List.mem_or_eq_of_mem_set hx with hx | rfl
  · exact h x hx
  · exact hfl.idem y

theorem gardenLoop_safe {fl : K → K} (hfl : Rounding fl) (ej : List K) {depth eff : K}
    (hd : Repr fl depth) (he0 : 0 ≤ eff) (he1 : eff ≤ 1) :
    ∀ (k : Nat) (d : K) (ice ice' : List K),
      (∀ x ∈ ice, 0 ≤ x) → (∀ x ∈ ice, Repr fl x) →
      gardenLoop fl ej depth eff (2 * k) d ice = .ok ice' →
      OnlyLosesIce ice ice' ∧ ∀ x ∈ ice', Repr fl x := by
  intro k
  induction k with
  | zero => intro d ice ice' h0 hr h; simp [gardenLoop] at h; subst h; exact ⟨onlyLoses_refl h0, hr⟩
  | succ k ih =>
    intro d ice ice' h0 hr h
    rw [gardenLoop_layer] at h
    split at h
    · split at h
      · cases h
      · rename_i e _
        split at h
        · rename_i hlt
          split at h
          · cases h
          · rename_i x hx
            have hxm := List.mem_of_getElem? hx
            obtain ⟨hr0, hr1⟩ := removed_bounds hfl (h0 x hxm) (hr x hxm) he0 he1 hd hlt
            obtain ⟨hl0, hl1⟩ := left_bounds hfl (hr x hxm) hr0 hr1
            have hset := onlyLoses_set h0 hx hl0 hl1
            obtain ⟨h1, h2⟩ := ih _ _ _ (onlyLoses_nonneg hset) (repr_set hfl hr k _) h
            exact ⟨onlyLoses_trans hset h1, h2⟩
        · cases h; exact ⟨onlyLoses_refl h0, hr⟩
    · cases h; exact ⟨onlyLoses_refl h0, hr⟩

theorem erodeLoop_safe {fl : K → K} (hfl : Rounding fl) (t base : Int) :
    ∀ (k : Nat) (ed : K) (ice ice' : List K),
      (∀ x ∈ ice, 0 ≤ x) → (∀ x ∈ ice, Repr fl x) →
      erodeLoop fl t base k ed ice = .ok ice' →
      OnlyLosesIce ice ice' ∧ ∀ x ∈ ice', Repr fl x := by
  intro k
  induction k with
  | zero => intro d ice ice' h0 hr h; simp [erodeLoop] at h; subst h; exact ⟨onlyLoses_refl h0, hr⟩
  | succ k ih =>
    intro ed ice ice' h0 hr h
    rw [erodeLoop] at h
    split at h
    · rename_i hpos
      split at h
      · split at h
        · cases h
        · rename_i x hx
          have hxm := List.mem_of_getElem? hx
          have hb : 0 ≤ (if x ≥ ed then fl (x - ed) else 0) ∧
              (if x ≥ ed then fl (x - ed) else 0) ≤ x := by
            split
            · rename_i hge; exact left_bounds hfl (hr x hxm) hpos.le hge
            · exact ⟨le_refl _, h0 x hxm⟩
          have hset := onlyLoses_set h0 hx hb.1 hb.2
          have hrs : ∀ y ∈ ice.set k (if x ≥ ed then fl (x - ed) else 0), Repr fl y := by
            intro y hy
            rcases List.mem_or_eq_of_mem_set hy with hy | rfl
            · exact hr y hy
            · split
              · exact hfl.idem _
              · exact hfl.zero
          obtain ⟨h1, h2⟩ := ih _ _ _ (onlyLoses_nonneg hset) hrs h
          exact ⟨onlyLoses_trans hset h1, h2⟩
      · cases h; exact ⟨onlyLoses_refl h0, hr⟩
    · cases h; exact ⟨onlyLoses_refl h0, hr⟩

end Safety

end MoonPIES
