import Verif.Props.Cannon
import Verif.Spec.CannonRef

/-!
# C108: gardening in Cannon mode is the gardening of Cannon et al. (2020)
-/

namespace MoonPIES

open Spec

set_option linter.unusedSectionVars false

variable {K : Type} [Field K] [LinearOrder K] [IsStrictOrderedRing K]

theorem refBase_ok (shield : K) (ej : List K) : ∀ t, t < ej.length →
    ∃ b, refBase shield ej t = .ok b ∧ b ≤ t ∧ ∀ e, ej[t]? = some e → 0 < t → (b < t ↔ e ≤ shield) := by
  intro t
  induction t with
  | zero =>
    intro h
    obtain ⟨e, he⟩ : ∃ e, ej[0]? = some e := ⟨ej[0], List.getElem?_eq_getElem h⟩
    refine ⟨0, ?_, le_rfl, fun _ _ h => absurd h (lt_irrefl _)⟩
    unfold refBase
    rw [List.range_succ]
    simp [pyGet, he, bind, Except.bind, pure, Except.pure]
  | succ t ih =>
    intro h
    obtain ⟨b, hb, hbt, -⟩ := ih (by omega)
    obtain ⟨e, he⟩ : ∃ e, ej[t + 1]? = some e := ⟨ej[t + 1], List.getElem?_eq_getElem h⟩
    refine ⟨if e > shield then t + 1 else b, ?_, ?_, ?_⟩
    · unfold refBase at hb ⊢
      rw [List.range_succ, List.foldlM_append, hb]
      simp [pyGet, he, bind, Except.bind, pure, Except.pure]
    · split <;> omega
    · intro e' he' _
      rw [he] at he'
      injection he' with he'
      subst he'
      by_cases hs : e > shield
      · rw [if_pos hs]; exact ⟨fun h => absurd h (lt_irrefl _), fun h => absurd hs (not_lt.2 h)⟩
      · rw [if_neg hs]; exact ⟨fun _ => not_lt.1 hs, fun _ => by omega⟩

theorem refLoop_done (t b n : Nat) (ed : K) (ice : List K) (h : ¬ ed > 0) : refLoop t b n ed ice = .ok ice := by
  rw [refLoop.eq_def]; exact if_neg h

theorem refLoop_shut (t b n : Nat) (ed : K) (ice : List K) (h : ¬ t > b) : refLoop t b n ed ice = .ok ice := by
  rw [refLoop.eq_def]; dsimp only; rw [if_neg h]; exact ite_self _

theorem refLoop_step (t b m i : Nat) (ed x : K) (ice : List K) (h : ed > 0) (hb : t > b)
    (hi : i = if m ≥ ice.length then m - ice.length else m) (hx : ice[i]? = some x) :
    refLoop t b (m + 1) ed ice =
      if x ≥ ed then .ok (ice.set i (x - ed)) else refLoop t b m (ed - x) (ice.set i 0) := by
  rw [refLoop.eq_def]
  simp only [if_pos h, if_pos hb, ← hi, pyGet, hx, bind, Except.bind]
  split
  · rw [refLoop_done _ _ _ _ _ (lt_irrefl _)]
  · rfl

/-- While there is enough ice, both loops do the same. -/
theorem loops_agree (t b : Nat) (base : Int) (hb : t > b) (hb' : (t : Int) > base) (L : Nat) :
    ∀ (k : Nat) (ed : K) (ice : List K), ice.length = L → k ≤ L → (∀ x ∈ ice, 0 ≤ x) → ed ≤ seg ice 0 k →
      erodeLoop (fun x => x) t base k ed ice = refLoop t b (k + L) ed ice := by
  intro k
  induction k with
  | zero =>
    intro ed ice hL hk h0 hs
    rw [seg_empty le_rfl] at hs
    rw [refLoop_done _ _ _ _ _ (not_lt.2 hs)]
    rfl
  | succ k ih =>
    intro ed ice hL hk h0 hs
    rw [erodeLoop]
    by_cases hed : ed > 0
    · obtain ⟨x, hx⟩ : ∃ x, ice[k]? = some x := ⟨ice[k]'(by omega), List.getElem?_eq_getElem (by omega)⟩
      rw [if_pos hed, if_pos hb', hx, show k + 1 + L = (k + L) + 1 by omega,
        refLoop_step t b (k + L) k ed x ice hed hb (by rw [hL, if_pos (by omega)]; omega) hx]
      dsimp only
      by_cases hge : x ≥ ed
      · rw [if_pos hge, if_pos hge]
        cases k with
        | zero => rfl
        | succ k => rw [erodeLoop, if_neg (by simpa using hge)]
      · rw [if_neg hge, if_neg hge]
        apply ih _ _ (by simp [hL]) (by omega) (nonneg_of_set h0 le_rfl)
        rw [seg_succ (by omega) hx] at hs
        rw [seg_congr (l := ice.set k 0) (l' := ice) (by simp) 0 k
            (fun j _ hj => List.getElem?_set_ne (by omega))]
        linarith
    · rw [if_neg hed, refLoop_done _ _ _ _ _ hed]

/-- **C108** the full claim is that the code erodes as the reference.  Proved after the first timestep if
there is enough ice to erode: for all columns, times, depths and shields.  Missing: the first timestep
(`C108_first_refuted`) and thinner ice (`C108_thin_refuted`). -/
theorem C108_gardening_partial (ice ej : List K) (t : Nat) (ed shield : K) (ht : 0 < t) (hi : t < ice.length)
    (hj : t < ej.length) (h0 : ∀ x ∈ ice, 0 ≤ x) (hs : ed ≤ seg ice 0 (t + 1)) :
    erodeIceCannon (fun x => x) ice ej t ed shield = refErosion ed shield ice t ej := by
  obtain ⟨b, hb, hbt, hiff⟩ := refBase_ok shield ej t hj
  unfold erodeIceCannon refErosion
  rw [hb]
  simp only [bind, Except.bind]
  obtain ⟨e, he⟩ : ∃ e, ej[t]? = some e := ⟨ej[t], List.getElem?_eq_getElem hj⟩
  by_cases hes : e ≤ shield
  · have hbase := (erosionBase_lt_iff ej t shield).2 (fun e' he' => by
      rw [he] at he'; injection he' with he'; rw [← he']; exact hes)
    rw [loops_agree t b _ ((hiff e he ht).2 hes) hbase ice.length (t + 1) ed ice rfl (by omega) h0 hs,
      show t + 1 + ice.length = t + ice.length + 1 by omega]
  · rw [refLoop_shut _ _ _ _ _ (fun h => hes ((hiff e he ht).1 h))]
    have hbase : ¬ ((t : Int) > erosionBase ej t shield) := fun h =>
      hes ((erosionBase_lt_iff ej t shield).1 h e he)
    rw [erodeLoop, if_neg hbase]
    exact ite_self _

/-- **C108** an ejecta layer above the shield on top: both leave all ice, even if there is little of
it. -/
theorem C108_shielded (ice ej : List K) (t : Nat) (ed shield e : K) (ht : 0 < t) (he : ej[t]? = some e)
    (hs : shield < e) : erodeIceCannon (fun x => x) ice ej t ed shield = .ok ice ∧
      refErosion ed shield ice t ej = .ok ice := by
  refine ⟨C08_surface_shield_partial _ ice ej t ed shield e he hs, ?_⟩
  obtain ⟨b, hb, hbt, hiff⟩ := refBase_ok shield ej t (List.getElem?_eq_some_iff.1 he).1
  unfold refErosion
  rw [hb]
  exact refLoop_shut _ _ _ _ _ (fun h => absurd ((hiff e he ht).1 h) (not_le.2 hs))

/-- **C108** at the first timestep the reference erodes nothing, as it starts with base 0 and counts from
0; the code erodes. -/
theorem C108_first_refuted :
    refErosion (1 / 10 : ℚ) (2 / 5) [1, 1] 0 [0, 0] = .ok [1, 1] ∧
    erodeIceCannon (fun x => x) [1, 1] [0, 0] 0 (1 / 10 : ℚ) (2 / 5) = .ok [9 / 10, 1] := by
  refine ⟨?_, by decide +kernel⟩
  unfold refErosion
  rw [show refBase (2 / 5 : ℚ) [0, 0] 0 = .ok 0 by decide +kernel]
  exact refLoop_shut _ _ _ _ _ (by decide)

/-- The reference goes round the end of the array when the ice is used up, and fails. -/
theorem refLoop_empty (t b : Nat) (hb : t > b) (ed : K) (hed : ed > 0) :
    ∀ (k : Nat) (ice : List K), k ≤ ice.length → (∀ x ∈ ice, x = 0) →
      refLoop t b k ed ice = .error .indexError := by
  intro k
  induction k with
  | zero => intro ice _ _; rw [refLoop.eq_def]; dsimp only; rw [if_pos hed, if_pos hb]
  | succ k ih =>
    intro ice hk h0
    obtain ⟨x, hx⟩ : ∃ x, ice[k]? = some x := ⟨ice[k]'(by omega), List.getElem?_eq_getElem (by omega)⟩
    have hx0 := h0 x (List.mem_of_getElem? hx)
    rw [refLoop_step t b k k ed x ice hed hb (by rw [if_neg (by omega)]) hx, if_neg (by rw [hx0]; exact not_le.2 hed),
      hx0, sub_zero]
    apply ih _ (by simp; omega)
    intro y hy
    rcases List.mem_or_eq_of_mem_set hy with h | h
    · exact h0 y h
    · exact h

theorem refLoop_thin (t b : Nat) (hb : t > b) (L : Nat) :
    ∀ (k : Nat) (ed : K) (ice : List K), ice.length = L → k ≤ L → (∀ x ∈ ice, 0 ≤ x) →
      (∀ (i : Nat) x, k ≤ i → ice[i]? = some x → x = 0) → seg ice 0 k < ed →
      refLoop t b (k + L) ed ice = .error .indexError := by
  intro k
  induction k with
  | zero =>
    intro ed ice hL hk h0 hz hs
    rw [seg_empty le_rfl] at hs
    rw [Nat.zero_add]
    refine refLoop_empty t b hb ed hs L ice hL.ge ?_
    intro x hx
    obtain ⟨i, hi⟩ := List.mem_iff_getElem?.1 hx
    exact hz i x (by omega) hi
  | succ k ih =>
    intro ed ice hL hk h0 hz hs
    obtain ⟨x, hx⟩ : ∃ x, ice[k]? = some x := ⟨ice[k]'(by omega), List.getElem?_eq_getElem (by omega)⟩
    rw [seg_succ (by omega) hx] at hs
    have hn := seg_nonneg h0 0 k
    have hx0 := h0 x (List.mem_of_getElem? hx)
    rw [show k + 1 + L = (k + L) + 1 by omega,
      refLoop_step t b (k + L) k ed x ice (by linarith) hb (by rw [hL, if_pos (by omega)]; omega) hx,
      if_neg (by rw [not_le]; linarith)]
    apply ih _ _ (by simp [hL]) (by omega) (nonneg_of_set h0 le_rfl)
    · intro i y hi hy
      by_cases hik : i = k
      · subst hik
        rw [List.getElem?_set_self (by omega)] at hy
        injection hy with hy
        exact hy.symm
      · rw [List.getElem?_set_ne (by omega)] at hy
        exact hz i y (by omega) hy
    · rw [seg_congr (l := ice.set k 0) (l' := ice) (by simp) 0 k
            (fun j _ hj => List.getElem?_set_ne (by omega))]
      linarith

/-- **C108** when a column up to now has less ice than is to be eroded, the reference raises `IndexError`
after going round the end of the array; the code removes all ice. -/
theorem C108_thin_refuted (ice ej : List K) (t : Nat) (ed shield : K) (ht : 0 < t) (hi : ice.length = t + 1)
    (hj : t < ej.length) (h0 : ∀ x ∈ ice, 0 ≤ x) (hs : ice.sum < ed) (hopen : ∀ e, ej[t]? = some e → e ≤ shield) :
    refErosion ed shield ice t ej = .error .indexError ∧
    erodeIceCannon (fun x => x) ice ej t ed shield = .ok (ice.map fun _ => 0) := by
  have hseg : seg ice 0 (t + 1) = ice.sum := by unfold seg; rw [← hi, List.take_length, List.drop_zero]
  constructor
  · obtain ⟨b, hb, hbt, hiff⟩ := refBase_ok shield ej t hj
    obtain ⟨e, he⟩ : ∃ e, ej[t]? = some e := ⟨ej[t], List.getElem?_eq_getElem hj⟩
    unfold refErosion
    rw [hb]
    simp only [bind, Except.bind]
    rw [show t + ice.length + 1 = t + 1 + ice.length by omega]
    refine refLoop_thin t b ((hiff e he ht).2 (hopen e he)) ice.length (t + 1) ed ice rfl (by omega) h0 ?_
      (by rw [hseg]; exact hs)
    intro i x hti hx
    have := (List.getElem?_eq_some_iff.1 hx).1
    omega
  · have hbase := (erosionBase_lt_iff ej t shield).2 hopen
    have hlt : ice.sum < ed := hs
    obtain ⟨ice', h'⟩ : ∃ ice', erodeIceCannon (fun x => x) ice ej t ed shield = .ok ice' := by
      have key : ∀ (k : Nat) (ed : K) (ice : List K), k ≤ ice.length →
          ∃ ice', erodeLoop (fun x => x) t (erosionBase ej t shield) k ed ice = .ok ice' := by
        intro k
        induction k with
        | zero => intro ed ice _; exact ⟨ice, rfl⟩
        | succ k ih =>
          intro ed ice hk
          rw [erodeLoop]
          split
          · rw [List.getElem?_eq_getElem (show k < ice.length by omega)]
            exact ih _ _ (by simp; omega)
          · exact ⟨ice, rfl⟩
      exact key (t + 1) ed ice (by omega)
    rw [h']
    congr 1
    unfold erodeIceCannon at h'
    have hlen := (erodeLoop_frame _ _ _ _ _ _ _ h').1
    apply List.ext_getElem?
    intro i
    rw [List.getElem?_map]
    by_cases hil : i < ice.length
    · have hx : ice[i]? = some ice[i] := List.getElem?_eq_getElem hil
      have hx' : ice'[i]? = some (ice'[i]'(by omega)) := List.getElem?_eq_getElem (by omega)
      have e := erodeLoop_exact hbase _ _ _ _ h0 h' i _ _ (by omega) hx hx'
      have hle : seg ice (i + 1) (t + 1) + ice[i] ≤ ice.sum := by
        rw [← hseg]
        have e1 : seg ice i (t + 1) = ice[i] + seg ice (i + 1) (t + 1) := by
          unfold seg
          rw [← hi, List.take_length, List.drop_eq_getElem_cons hil, List.sum_cons]
        have e2 : seg ice 0 (t + 1) = (ice.take i).sum + seg ice i (t + 1) := by
          unfold seg
          rw [← hi, List.take_length, List.drop_zero, ← List.sum_append, List.take_append_drop]
        have : 0 ≤ (ice.take i).sum := List.sum_nonneg fun x hx => h0 x (List.mem_of_mem_take hx)
        linarith
      rw [hx, hx', e, min_eq_left (by rw [le_max_iff]; right; linarith), sub_self]
      rfl
    · rw [List.getElem?_eq_none (by omega), List.getElem?_eq_none (by omega)]
      rfl

/-- Columns of the test suite meet the hypotheses. -/
example : (1 / 10 : ℚ) ≤ seg [1, 1, 2, 1, 3, 1] 0 6 ∧
    refErosion (1 / 10 : ℚ) (2 / 5) [1, 1, 2, 1, 3, 1] 5 [1 / 2, 1 / 2, 1 / 2, 1 / 10, 0, 3 / 10] =
      .ok [1, 1, 2, 1, 3, 9 / 10] ∧
    refErosion (1 / 10 : ℚ) (2 / 5) [0, 0, 1 / 20] 2 [0, 0, 0] = .error .indexError := by
  refine ⟨by decide +kernel, ?_, ?_⟩
  · rw [← C108_gardening_partial _ _ _ _ _ (by decide) (by decide) (by decide) (by decide +kernel) (by decide +kernel)]
    decide +kernel
  · exact (C108_thin_refuted _ _ _ _ _ (by decide) rfl (by decide) (by decide +kernel) (by decide +kernel)
      (by decide +kernel)).1

end MoonPIES
