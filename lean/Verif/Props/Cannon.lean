import Mathlib.Algebra.Order.Ring.Rat
import Verif.Lemmas.ColumnExact

/-!
# C07, C08: Cannon erosion of one column (`erode_ice_cannon`)
-/

namespace MoonPIES

open Spec

set_option linter.unusedSectionVars false

variable {K : Type} [Field K] [LinearOrder K] [IsStrictOrderedRing K]

/-! ## Helper lemmas -/

theorem shieldIdx_mem {ej : List K} {t j : Nat} {s : K} :
    j ∈ shieldIdx ej t s ↔ j ≤ t ∧ ∃ e, ej[j]? = some e ∧ s < e := by
  unfold shieldIdx
  rw [List.mem_filter, List.mem_range]
  constructor
  · rintro ⟨h1, h2⟩
    rw [List.length_take] at h1
    cases he : ej[j]? with
    | none => rw [he] at h2; cases h2
    | some e => rw [he] at h2; exact ⟨by omega, e, rfl, by simpa using h2⟩
  · rintro ⟨h1, e, he, hs⟩
    have := (List.getElem?_eq_some_iff.1 he).1
    rw [he, List.length_take]
    exact ⟨by omega, by simpa using hs⟩

theorem shieldIdx_sorted (ej : List K) (t : Nat) (s : K) :
    (shieldIdx ej t s).Pairwise (· < ·) :=
  List.Pairwise.filter _ List.pairwise_lt_range

/-- `erosion_base` is the greatest shielding index, or `-1` when there is none. -/
theorem erosionBase_spec (ej : List K) (t : Nat) (s : K) :
    (erosionBase ej t s = -1 ∧ ∀ j e, j ≤ t → ej[j]? = some e → e ≤ s) ∨
    ∃ b e, b ≤ t ∧ ej[b]? = some e ∧ s < e ∧ erosionBase ej t s = (b : Int) ∧
      ∀ j f, b < j → j ≤ t → ej[j]? = some f → f ≤ s := by
  unfold erosionBase
  cases h : (shieldIdx ej t s).getLast? with
  | none =>
    left
    refine ⟨rfl, ?_⟩
    intro j e hj he
    by_contra hc
    have : j ∈ shieldIdx ej t s := shieldIdx_mem.2 ⟨hj, e, he, not_le.1 hc⟩
    rw [List.getLast?_eq_none_iff.1 h] at this
    simp at this
  | some b =>
    right
    have hb : b ∈ shieldIdx ej t s := List.mem_of_getLast? h
    obtain ⟨hbt, e, he, hs⟩ := shieldIdx_mem.1 hb
    refine ⟨b, e, hbt, he, hs, rfl, ?_⟩
    intro j f hbj hjt hf
    by_contra hc
    have hj : j ∈ shieldIdx ej t s := shieldIdx_mem.2 ⟨hjt, f, hf, not_le.1 hc⟩
    have hsorted := shieldIdx_sorted ej t s
    obtain ⟨l, hl⟩ := List.getLast?_eq_some_iff.1 h
    rw [hl] at hj hsorted
    rw [List.pairwise_append] at hsorted
    rcases List.mem_append.1 hj with hj | hj
    · have := hsorted.2.2 j hj b (by simp); omega
    · simp at hj; omega

theorem erosionBase_lt_iff (ej : List K) (t : Nat) (s : K) :
    erosionBase ej t s < t ↔ ∀ e, ej[t]? = some e → e ≤ s := by
  rcases erosionBase_spec ej t s with ⟨h1, h2⟩ | ⟨b, e, hb, he, hs, h1, h2⟩
  · rw [h1]
    exact ⟨fun _ e he => h2 t e le_rfl he, fun _ => by omega⟩
  · rw [h1]
    constructor
    · intro hlt f hf
      exact h2 t f (by omega) le_rfl hf
    · intro hall
      rcases Nat.lt_or_eq_of_le hb with hlt | heq
      · omega
      · subst heq
        exact absurd (hall e he) (not_le.2 hs)

theorem seg_congr {l l' : List K} (hlen : l.length = l'.length) (i k : Nat)
    (h : ∀ j : Nat, i ≤ j → j < k → l[j]? = l'[j]?) : seg l i k = seg l' i k := by
  apply le_antisymm
  · apply seg_le_seg hlen
    intro j x x' h1 h2 hx hx'
    rw [h j h1 h2] at hx; rw [hx] at hx'; cases hx'; exact le_rfl
  · apply seg_le_seg hlen.symm
    intro j x x' h1 h2 hx hx'
    rw [← h j h1 h2] at hx; rw [hx] at hx'; cases hx'; exact le_rfl

theorem ite_eq_sub_min (x ed : K) : (if x ≥ ed then x - ed else 0) = x - min x ed := by
  split
  · rw [min_eq_right (by assumption)]
  · rw [min_eq_left (le_of_lt (not_le.1 (by assumption)))]; simp

theorem erodeLoop_exact {t base : Int} (hbase : base < t) :
    ∀ (k : Nat) (ed : K) (ice ice' : List K), (∀ x ∈ ice, 0 ≤ x) →
      erodeLoop (fun x => x) t base k ed ice = .ok ice' →
      ∀ (i : Nat) x x', i < k → ice[i]? = some x → ice'[i]? = some x' →
        x' = x - min x (max 0 (ed - seg ice (i + 1) k)) := by
  intro k
  induction k with
  | zero => intro ed ice ice' _ _ i x x' hi; omega
  | succ k ih =>
    intro ed ice ice' h0 h i x x' hi hx hx'
    have hx0 := h0 x (List.mem_of_getElem? hx)
    rw [erodeLoop] at h
    split at h
    · rename_i hpos
      split at h
      · cases h
      · rename_i y hy
        simp only [ite_eq_sub_min] at h
        have hfr := (erodeLoop_frame _ _ _ _ _ _ _ h).2 k le_rfl
        by_cases hik : i = k
        · subst hik
          rw [hx] at hy; cases hy
          rw [hfr, List.getElem?_set_self (List.getElem?_eq_some_iff.1 hx).1] at hx'
          cases hx'
          rw [seg_empty le_rfl, sub_zero, max_eq_right hpos.le]
        · have hy0 := h0 y (List.mem_of_getElem? hy)
          have hxs : (ice.set k (y - min y ed))[i]? = some x := by
            rw [List.getElem?_set_ne (by omega)]; exact hx
          have hn : 0 ≤ y - min y ed := sub_nonneg.2 (min_le_left _ _)
          have := ih _ _ _ (nonneg_of_set h0 hn) h i x x' (by omega) hxs hx'
          rw [this, seg_succ (by omega) hy]
          rw [seg_congr (l := ice.set k (y - min y ed)) (l' := ice) (by simp) (i + 1) k
            (fun j _ hj => List.getElem?_set_ne (by omega))]
          congr 3
          ring
    · rename_i hneg
      cases h
      rw [hx] at hx'; cases hx'
      have hs := seg_nonneg h0 (i + 1) (k + 1)
      rw [max_eq_left (by linarith [not_lt.1 hneg]), min_eq_right hx0, sub_zero]

theorem erodeLoop_sum {t base : Int} (hbase : base < t) :
    ∀ (k : Nat) (ed : K) (ice ice' : List K), (∀ x ∈ ice, 0 ≤ x) →
      erodeLoop (fun x => x) t base k ed ice = .ok ice' →
      seg ice 0 k - seg ice' 0 k = min (max 0 ed) (seg ice 0 k) := by
  intro k
  induction k with
  | zero => intro ed ice ice' _ _; simp [seg_empty]
  | succ k ih =>
    intro ed ice ice' h0 h
    have hs := seg_nonneg h0 0 k
    rw [erodeLoop] at h
    split at h
    · rename_i hpos
      split at h
      · cases h
      · rename_i y hy
        simp only [ite_eq_sub_min] at h
        have hfr := (erodeLoop_frame _ _ _ _ _ _ _ h).2 k le_rfl
        rw [List.getElem?_set_self (List.getElem?_eq_some_iff.1 hy).1] at hfr
        have hy0 := h0 y (List.mem_of_getElem? hy)
        have hn : 0 ≤ y - min y ed := sub_nonneg.2 (min_le_left _ _)
        have := ih _ _ _ (nonneg_of_set h0 hn) h
        rw [seg_congr (l := ice.set k (y - min y ed)) (l' := ice) (by simp) 0 k
            (fun j _ hj => List.getElem?_set_ne (by omega))] at this
        rw [seg_succ (by omega) hy, seg_succ (by omega) hfr]
        have hpos' : max 0 ed = ed := max_eq_right (le_of_lt hpos)
        rw [hpos']
        rcases le_total y ed with hle | hle
        · rw [min_eq_left hle, sub_self, add_zero]
          rw [max_eq_right (by linarith)] at this
          rcases le_total (ed - y) (seg ice 0 k) with h1 | h1
          · rw [min_eq_left h1] at this
            rw [min_eq_left (by linarith)]
            linarith
          · rw [min_eq_right h1] at this
            rw [min_eq_right (by linarith)]
            linarith
        · rw [min_eq_right hle]
          rw [max_eq_left (by linarith), min_eq_left hs] at this
          rw [min_eq_left (by linarith)]
          linarith
    · rename_i hneg
      cases h
      have hs' := seg_nonneg h0 0 (k + 1)
      rw [max_eq_left (not_lt.1 hneg), min_eq_left hs', sub_self]

/-! ## The properties -/

/-- **C07** (amount) If the surface ejecta layer (time `t`) does not exceed the
shield, Cannon erosion removes exactly the erosion depth, or all the ice of
layers `0..t` when there is less; layers above `t` are unchanged. -/
theorem C07_cannon_amount (ice ej : List K) (t : Nat) (ed shield : K)
    (hice : ∀ x ∈ ice, 0 ≤ x) (hed : 0 ≤ ed)
    (hopen : ∀ e, ej[t]? = some e → e ≤ shield)
    (ice' : List K) (h : erodeIceCannon (fun x => x) ice ej t ed shield = .ok ice') :
    seg ice 0 (t + 1) - seg ice' 0 (t + 1) = min ed (seg ice 0 (t + 1)) ∧
    ice'.length = ice.length ∧ ∀ i, t < i → ice'[i]? = ice[i]? := by
  have hb := (erosionBase_lt_iff ej t shield).2 hopen
  have h1 := erodeLoop_sum hb _ _ _ _ hice h
  have h2 := erodeLoop_frame _ _ _ _ _ _ _ h
  rw [max_eq_right hed] at h1
  exact ⟨h1, h2.1, fun i hi => h2.2 i hi⟩

/-- **C07** (order) Ice is taken from the youngest layers first: when an older
layer loses ice, every younger layer up to `t` is empty afterwards. -/
theorem C07_cannon_youngest_first (ice ej : List K) (t : Nat) (ed shield : K)
    (hice : ∀ x ∈ ice, 0 ≤ x)
    (ice' : List K) (h : erodeIceCannon (fun x => x) ice ej t ed shield = .ok ice')
    (i j : Nat) (hij : i < j) (hjt : j ≤ t) (x x' y' : K)
    (hx : ice[i]? = some x) (hx' : ice'[i]? = some x') (hy' : ice'[j]? = some y')
    (hloss : x' < x) : y' = 0 := by
  by_cases hb : erosionBase ej t shield < t
  · have e1 := erodeLoop_exact hb _ _ _ _ hice h i x x' (by omega) hx hx'
    have hlen := (erodeLoop_frame _ _ _ _ _ _ _ h).1
    have hj : j < ice.length := by rw [← hlen]; exact (List.getElem?_eq_some_iff.1 hy').1
    have hy : ice[j]? = some ice[j] := List.getElem?_eq_getElem hj
    have e2 := erodeLoop_exact hb _ _ _ _ hice h j _ y' (by omega) hy hy'
    generalize ice[j] = y at *
    have hpos : 0 < ed - seg ice (i + 1) (t + 1) := by
      by_contra hc
      rw [max_eq_left (not_lt.1 hc), min_eq_right (hice x (List.mem_of_getElem? hx)), sub_zero] at e1
      rw [e1] at hloss
      exact lt_irrefl _ hloss
    -- the ice above `i` includes that of `j` and above
    have hsplit : y + seg ice (j + 1) (t + 1) ≤ seg ice (i + 1) (t + 1) := by
      have key : ∀ k, j < k → y + seg ice (j + 1) k ≤ seg ice (i + 1) k := by
        intro k hk
        induction k with
        | zero => omega
        | succ k ih =>
          by_cases hjk : j = k
          · subst hjk
            rw [seg_empty le_rfl, add_zero, seg_succ (by omega) hy]
            linarith [seg_nonneg hice (i + 1) j]
          · by_cases hkl : k < ice.length
            · have hz : ice[k]? = some ice[k] := List.getElem?_eq_getElem hkl
              rw [seg_succ (by omega) hz, seg_succ (by omega) hz]
              have := ih (by omega)
              linarith
            · have e1 : seg ice (i + 1) (k + 1) = seg ice (i + 1) k := by
                unfold seg; rw [List.take_of_length_le (by omega), List.take_of_length_le (by omega)]
              have e2 : seg ice (j + 1) (k + 1) = seg ice (j + 1) k := by
                unfold seg; rw [List.take_of_length_le (by omega), List.take_of_length_le (by omega)]
              rw [e1, e2]; exact ih (by omega)
      exact key (t + 1) (by omega)
    rw [e2, min_eq_left]
    · ring
    · exact le_max_of_le_right (by linarith)
  · -- shielded at the surface: nothing is removed
    unfold erodeIceCannon at h
    rw [erodeLoop] at h
    split at h
    · cases h
      rw [hx] at hx'; cases hx'; exact absurd hloss (lt_irrefl _)
    · cases h
      rw [hx] at hx'; cases hx'; exact absurd hloss (lt_irrefl _)

/-- C07 with a budget that empties the two youngest layers and part of the third. -/
example : erodeIceCannon (fun x => x) [5, 4, 1, 2] [0, 0, 1 / 10, 0] 3 (7 / 2) (2 / 5) =
    (.ok [5, 7 / 2, 0, 0] : Except PyErr (List ℚ)) := by decide +kernel

/-- **C08 refuted.** A thick ejecta layer does not protect the ice beneath it
when it is not the most recent layer: here layer 0 is covered by 10 m of ejecta
(shield 0.4 m), and still loses ice. -/
theorem C08_refuted :
    ¬ ∀ (ice ej : List ℚ) (t : Nat) (ed shield : ℚ) (ice' : List ℚ) (j : Nat) (e : ℚ),
      (∀ x ∈ ice, 0 ≤ x) → (∀ x ∈ ej, 0 ≤ x) → ice.length = ej.length → t < ice.length →
      erodeIceCannon (fun x => x) ice ej t ed shield = .ok ice' →
      j ≤ t → ej[j]? = some e → shield < e →
      ∀ i, i ≤ j → ice'[i]? = ice[i]? := by
  intro hall
  have := hall [5, 1] [10, 0] 1 2 (2 / 5) [4, 0] 0 10 (by decide +kernel) (by decide +kernel)
    (by decide) (by decide) (by decide +kernel) (by decide) (by decide +kernel) (by decide +kernel)
    0 le_rfl
  revert this
  decide +kernel

/-- **C08 (partial).** Full claim: every layer at or below the most recent
shielding layer is protected (refuted above).  What holds, for any rounding: if
the shielding ejecta is the surface layer `t` itself, nothing at all is eroded. -/
theorem C08_surface_shield_partial (fl : K → K) (ice ej : List K) (t : Nat) (ed shield e : K)
    (he : ej[t]? = some e) (hs : shield < e) :
    erodeIceCannon fl ice ej t ed shield = .ok ice := by
  have hb : ¬ erosionBase ej t shield < t := by
    rw [erosionBase_lt_iff]
    intro hall
    exact absurd (hall e he) (not_le.2 hs)
  unfold erodeIceCannon
  rw [erodeLoop]
  split
  · rfl
  · rfl

example : erodeIceCannon (fun x => x) [5, 4, 1, 2] [0, 0, 1 / 10, 1 / 2] 3 (7 / 2) (2 / 5) =
    (.ok [5, 4, 1, 2] : Except PyErr (List ℚ)) :=
  C08_surface_shield_partial _ _ _ _ _ _ (1 / 2) (by decide +kernel) (by decide +kernel)

end MoonPIES
