import Mathlib.Tactic.Linarith
import Mathlib.Tactic.Positivity
import Mathlib.Tactic.NormNum
import Mathlib.Tactic.Ring
import Verif.Lemmas.Except
import Verif.Model.Thermal

/-!
# Facts about the conduction model
-/

namespace MoonPIES

set_option linter.unusedSectionVars false

variable {K : Type} [Field K] [LinearOrder K] [IsStrictOrderedRing K]

/-- The heat capacity is large enough for a stable step. -/
theorem sphc_lower (T : K) (h1 : 45 ≤ T) (h2 : T ≤ 510) :
    thermalConductivity T * 20000000 ≤ 1800 * sphc T := by
  unfold thermalConductivity sphc
  have h0 : (0 : K) ≤ T := by linarith
  have e : (T / 350) ^ 3 = T ^ 3 / 42875000 := by rw [div_pow]; norm_num
  rw [e]
  rcases le_total T 250 with h | h
  · have a : T ^ 3 ≤ 250 * T ^ 2 := by nlinarith [sq_nonneg T]
    have b : 0 ≤ T ^ 4 := by positivity
    have c : 45 * T ≤ T ^ 2 := by nlinarith
    have d : T ^ 2 ≤ 250 * T := by nlinarith
    linarith
  · have s : (0 : K) ≤ T ^ 2 := by positivity
    have q : (0 : K) ≤ T ^ 3 := by positivity
    have a : 250 * T ^ 3 ≤ T ^ 4 := by nlinarith
    have b : T ^ 3 ≤ 510 * T ^ 2 := by nlinarith
    have d : T ^ 2 ≤ 510 * T := by nlinarith
    linarith

theorem conductivity_pos (T : K) (h : 0 ≤ T) : 0 < thermalConductivity T := by
  unfold thermalConductivity; positivity

/-- In the range of the melt table the finite difference coefficient is between 0 and 1/2. -/
theorem heatCoeff_range (T : K) (h1 : 45 ≤ T) (h2 : T ≤ 510) :
    ∃ c, heatCoeff T = .ok c ∧ 0 < c ∧ c ≤ 1 / 2 := by
  have hk := conductivity_pos T (by linarith)
  have hs := sphc_lower T h1 h2
  have hd : 0 < 1800 * sphc T := by linarith
  refine ⟨(thermalConductivity T / (1800 * sphc T) * (1 / 1000)) / (1 / 100000) ^ 2, ?_, ?_, ?_⟩
  · unfold heatCoeff thermalDiffusivity
    rw [if_neg (ne_of_gt hd)]; rfl
  · positivity
  · have e : (thermalConductivity T / (1800 * sphc T) * (1 / 1000)) / (1 / 100000) ^ 2 =
        thermalConductivity T * 10000000 / (1800 * sphc T) := by
      rw [mul_div_right_comm]; norm_num [div_eq_mul_inv]; ring
    rw [e, div_le_iff₀ hd]; linarith

theorem heatUpdate_mem (c a t b lo hi : K) (h0 : 0 ≤ c) (h1 : c ≤ 1 / 2)
    (ha : lo ≤ a ∧ a ≤ hi) (ht : lo ≤ t ∧ t ≤ hi) (hb : lo ≤ b ∧ b ≤ hi) :
    lo ≤ heatUpdate c a t b ∧ heatUpdate c a t b ≤ hi := by
  unfold heatUpdate
  have h2 : 0 ≤ 1 - 2 * c := by linarith
  constructor
  · nlinarith [mul_le_mul_of_nonneg_left ha.1 h0, mul_le_mul_of_nonneg_left hb.1 h0,
      mul_le_mul_of_nonneg_left ht.1 h2]
  · nlinarith [mul_le_mul_of_nonneg_left ha.2 h0, mul_le_mul_of_nonneg_left hb.2 h0,
      mul_le_mul_of_nonneg_left ht.2 h2]

/-- What a successful comprehension holds, element by element. -/
theorem mapM_ok_inv {ε α β : Type} (f : α → Except ε β) : ∀ (l : List α) (m : List β),
    l.mapM f = .ok m → m.length = l.length ∧
      ∀ (i : Nat) a, l[i]? = some a → ∃ b, m[i]? = some b ∧ f a = .ok b
  | [], m, h => by
    cases h; simp
  | a :: l, m, h => by
    rw [List.mapM_cons] at h
    cases hb : f a with
    | error e => rw [hb] at h; cases h
    | ok b =>
      cases hm : l.mapM f with
      | error e => rw [hb, hm] at h; cases h
      | ok m' =>
        rw [hb, hm] at h
        cases h
        obtain ⟨hl, hi⟩ := mapM_ok_inv f l m' hm
        refine ⟨by simp [hl], ?_⟩
        intro i x hx
        cases i with
        | zero =>
          simp only [List.getElem?_cons_zero, Option.some.injEq] at hx
          exact ⟨b, by simp, hx ▸ hb⟩
        | succ i =>
          simp only [List.getElem?_cons_succ] at hx ⊢
          exact hi i x hx

theorem pyGet_some {α : Type} {l : List α} {i : Nat} {x : α} (h : l[i]? = some x) :
    pyGet l i = .ok x := by
  unfold pyGet; rw [h]

/-- The value returned by `heat1d` when the lookups are known. -/
theorem heat1d_eq (T c : List K) (c0 cn first second last penult : K)
    (hc : T.mapM heatCoeff = .ok c) (h0 : c[0]? = some c0) (hn : c[c.length - 1]? = some cn)
    (hf : T[0]? = some first) (hs : T[1]? = some second) (hl : T[T.length - 1]? = some last)
    (hp : T[T.length - 2]? = some penult) :
    heat1d T = .ok (heatUpdate c0 last first second ::
      List.zipWith (fun c w => heatUpdate c w.1 w.2.1 w.2.2) (c.drop 1)
        (T.zip ((T.drop 1).zip (T.drop 2))) ++ [heatUpdate cn penult last first]) := by
  unfold heat1d
  simp only [bind, Except.bind, hc, pyGet_some h0, pyGet_some hn, pyGet_some hf, pyGet_some hs,
    pyGet_some hl, pyGet_some hp]

theorem pyGet_inv {α : Type} {l : List α} {i : Nat} {x : α} (h : pyGet l i = .ok x) :
    l[i]? = some x := by
  unfold pyGet at h
  split at h
  · cases h; assumption
  · cases h

/-- A step succeeds exactly when there are two elements and every coefficient is defined. -/
theorem heat1d_ok (T : List K) (hlen : 2 ≤ T.length)
    (hc : ∀ t ∈ T, ∃ c, heatCoeff t = .ok c) : ∃ T', heat1d T = .ok T' := by
  obtain ⟨c, hm, hl, _⟩ := mapM_ok heatCoeff T hc
  exact ⟨_, heat1d_eq T c c[0] (c[c.length - 1]) T[0] T[1] T[T.length - 1] T[T.length - 2] hm
    (by simp) (List.getElem?_eq_getElem _) (by simp) (by simp) (List.getElem?_eq_getElem _)
    (List.getElem?_eq_getElem _)⟩

/-- One step, element by element, on a ring. -/
theorem heat1d_ring (T T' : List K) (h : heat1d T = .ok T') :
    2 ≤ T.length ∧ T'.length = T.length ∧
    ∀ i, i < T.length → ∃ c a t b, T[(i + T.length - 1) % T.length]? = some a ∧
      T[i]? = some t ∧ T[(i + 1) % T.length]? = some b ∧ heatCoeff t = .ok c ∧
      T'[i]? = some (heatUpdate c a t b) := by
  cases hm : T.mapM heatCoeff with
  | error e => unfold heat1d at h; rw [hm] at h; cases h
  | ok c =>
    obtain ⟨hl, hi⟩ := mapM_ok_inv heatCoeff T c hm
    have hlen : 2 ≤ T.length := by
      rcases T with _ | ⟨a, _ | ⟨b, T⟩⟩
      · cases hm; cases h
      · exfalso
        unfold heat1d at h
        rw [hm] at h
        cases c with
        | nil => cases h
        | cons c0 c => cases c with
          | nil => cases h
          | cons _ _ => simp at hl
      · simp
    have e := heat1d_eq T c c[0] (c[c.length - 1]) T[0] T[1] T[T.length - 1] T[T.length - 2] hm
      (by simp) (List.getElem?_eq_getElem _) (by simp) (by simp) (List.getElem?_eq_getElem _)
      (List.getElem?_eq_getElem _)
    rw [e] at h
    cases h
    refine ⟨hlen, by simp; omega, ?_⟩
    intro i hiT
    obtain ⟨ci, hci, hco⟩ := hi i T[i] (List.getElem?_eq_getElem _)
    have hcg : c[i] = ci := by
      rw [List.getElem?_eq_getElem (by omega)] at hci; simpa using hci
    rcases Nat.eq_zero_or_pos i with rfl | hpos
    · refine ⟨ci, T[T.length - 1], T[0], T[1], ?_, by simp, ?_, hco, ?_⟩
      · rw [Nat.mod_eq_of_lt (by omega), Nat.zero_add]
        exact List.getElem?_eq_getElem _
      · rw [Nat.mod_eq_of_lt (by omega)]; simp
      · simp [hcg]
    · obtain ⟨j, rfl⟩ : ∃ j, i = j + 1 := ⟨i - 1, by omega⟩
      have hprev : (j + 1 + T.length - 1) % T.length = j := by
        rw [show j + 1 + T.length - 1 = j + T.length by omega, Nat.add_mod_right,
          Nat.mod_eq_of_lt (by omega)]
      rw [hprev]
      by_cases hlast : j + 2 = T.length
      · refine ⟨ci, T[T.length - 2], T[T.length - 1], T[0], ?_, ?_, ?_, ?_, ?_⟩
        · rw [List.getElem?_eq_getElem (by omega)]; congr 2; omega
        · rw [List.getElem?_eq_getElem (by omega)]; congr 2; omega
        · rw [show j + 1 + 1 = T.length by omega, Nat.mod_self]; simp
        · rw [← hco]; congr 2; omega
        · rw [List.cons_append, List.getElem?_cons_succ, List.getElem?_append_right
            (by simp; omega)]
          have : c[c.length - 1] = ci := by
            rw [← hcg]; congr 1; omega
          rw [this, show j - _ = 0 by simp; omega]
          rfl
      · refine ⟨ci, T[j], T[j + 1], T[j + 2], List.getElem?_eq_getElem _,
          List.getElem?_eq_getElem _, ?_, hco, ?_⟩
        · rw [Nat.mod_eq_of_lt (by omega)]; exact List.getElem?_eq_getElem _
        · rw [List.cons_append, List.getElem?_cons_succ, List.getElem?_append_left
            (by simp; omega), List.getElem?_eq_getElem (by simp; omega)]
          simp [hcg, Nat.add_comm]

end MoonPIES
