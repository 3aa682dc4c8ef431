import Verif.Lemmas.GardenFl
import Verif.Spec.StratFl
import Verif.Lemmas.Float

/-!
# C153: gardening and erosion in floating point
-/

namespace MoonPIES

open Spec

section
set_option linter.unusedSectionVars false
variable {K : Type} [Field K] [LinearOrder K] [IsStrictOrderedRing K]

theorem absErr_of_rel {fl : K → K} {u M : K} (hu : 0 ≤ u) (h : RelErr fl u) : AbsErr fl M (u * M) :=
  fun y hy => (h y).trans (mul_le_mul_of_nonneg_left hy hu)

/-- **C153** One gardening in rounded arithmetic: the ice left differs from what exact arithmetic leaves by at
most `7 * (2 ^ (t + 1) - 1)` roundings for `t + 1` layers. -/
theorem C153_garden {fl : K → K} {u M : K} (hfl : Rounding fl) (hu : 0 ≤ u) (hrel : RelErr fl u)
    (ice ej : List K) (t : Nat) (depth eff : K) (hi : ∀ x ∈ ice, 0 ≤ x ∧ Repr fl x ∧ depth + x ≤ M)
    (he : ∀ x ∈ ej, 0 ≤ x ∧ depth + x ≤ M) (hd : Repr fl depth) (hd0 : 0 ≤ depth) (h0 : 0 ≤ eff) (h1 : eff ≤ 1)
    (hti : t < ice.length) (hte : t < ej.length) :
    ∃ r r', gardenIceColumn fl ice ej t depth eff = .ok r ∧
      gardenIceColumn (fun x => x) ice ej t depth eff = .ok r' ∧ r.length = r'.length ∧
      gap r r' ≤ 7 * (2 ^ (t + 1) - 1) * (u * M) := by
  have hn : (2 * (t : Int) + 2).toNat = 2 * (t + 1) := by omega
  have hM : 0 ≤ M := by
    have := hi _ (List.getElem_mem hti)
    linarith [this.1, this.2.2]
  have g1 := garden_sinkFl fl ej depth eff (t + 1) 0 ice (by omega) (by omega)
  have g2 := garden_sink ej depth eff (t + 1) 0 ice (by omega) (by omega)
  rw [work_sink depth eff h0 _ _ (pileOf_mem (fun x hx => (hi x hx).1) (fun x hx => (he x hx).1)), sub_zero] at g2
  have hp : (pileOf ice ej (t + 1)).length = t + 1 := by
    have := congrArg List.length (pileOf_fst (ice := ice) (ej := ej) (n := t + 1) (by omega) (by omega))
    rw [List.length_map, List.length_reverse, List.length_take] at this
    omega
  have hm : ∀ p ∈ pileOf ice ej (t + 1), 0 ≤ p.1 ∧ 0 ≤ p.2 ∧ Repr fl p.1 ∧ depth + p.1 ≤ M ∧ depth + p.2 ≤ M := by
    intro p hp
    obtain ⟨a, b⟩ := p
    have hm := List.of_mem_zip (List.mem_reverse.1 hp)
    obtain ⟨i1, i2, i3⟩ := hi _ (List.mem_of_mem_take hm.1)
    obtain ⟨e1, e2⟩ := he _ (List.mem_of_mem_take hm.2)
    exact ⟨i1, e1, i2, i3, e2⟩
  have key := sinkFl_gap hfl (absErr_of_rel (M := M) hu hrel) (mul_nonneg hu hM) h0 h1 hd
    (pileOf ice ej (t + 1)) 0 depth hm le_rfl
  rw [sub_zero, sub_self, abs_zero, zero_add, hp] at key
  have hw : (sinkFl fl depth eff 0 (pileOf ice ej (t + 1))).length = (work eff depth (pileOf ice ej (t + 1))).length := by
    rw [sinkFl_length, work_length]
  rw [← hn] at g1 g2
  refine ⟨_, _, g1, g2, ?_, ?_⟩
  · rw [List.length_append, List.length_append, List.length_reverse, List.length_reverse, hw]
  · rw [gap_append _ _ _ _ (by rw [List.length_reverse, List.length_reverse, hw]), gap_reverse _ _ hw, gap_self,
      add_zero]
    linarith

/-- **C153** One step of the erosion of Cannon et al. in rounded arithmetic adds at most one rounding per layer
to whatever the columns differed by. -/
theorem C153_cannon {fl : K → K} {u M : K} (hfl : Rounding fl) (hu : 0 ≤ u) (hrel : RelErr fl u) (hM : Repr fl M)
    (ice ice' ej : List K) (t : Nat) (ed shield : K) (hi : ∀ x ∈ ice, 0 ≤ x ∧ x ≤ M) (hi' : ∀ x ∈ ice', 0 ≤ x)
    (h0 : 0 ≤ ed) (hedM : ed ≤ M) (hl : ice.length = ice'.length) (hti : t < ice.length) (hte : t < ej.length)
    (r r' : List K) (h : erodeIceCannon fl ice ej t ed shield = .ok r)
    (h' : erodeIceCannon (fun x => x) ice' ej t ed shield = .ok r') :
    gap r r' ≤ gap ice ice' + (t + 1) * (u * M) ∧ r.length = r'.length := by
  have hM0 : 0 ≤ M := h0.trans hedM
  by_cases hs : ej[t] ≤ shield
  · have hb : erosionBase ej t shield < t := (erosionBase_lt_iff ej t shield).2 (fun f hf => by
      rw [List.getElem?_eq_getElem hte] at hf; injection hf with hf; rw [← hf]; exact hs)
    unfold erodeIceCannon at h
    rw [erode_eatFl fl hb (t + 1) ed ice (by omega)] at h
    injection h with h
    have e2 := erodeLoop_eat hb (t + 1) ed ice' r' h0 hi' (by omega) h'
    have hlt : (ice.take (t + 1)).length = (ice'.take (t + 1)).length := by
      rw [List.length_take, List.length_take, hl]
    have hlen : (eatFl fl ed (ice.take (t + 1)).reverse).length = (eat ed (ice'.take (t + 1)).reverse).length := by
      rw [eatFl_length, eat_length, List.length_reverse, List.length_reverse, hlt]
    have key := eatFl_gap hfl (absErr_of_rel (M := M) hu hrel) (mul_nonneg hu hM0) hM (ice.take (t + 1)).reverse
      (ice'.take (t + 1)).reverse ed ed (by rw [List.length_reverse, List.length_reverse, hlt])
      (fun x hx => hi x (List.mem_of_mem_take (List.mem_reverse.1 hx)))
      (fun x hx => hi' x (List.mem_of_mem_take (List.mem_reverse.1 hx))) h0 hedM h0
    rw [gap_reverse _ _ hlt, sub_self, abs_zero, add_zero, List.length_reverse, List.length_take,
      min_eq_left (by omega), Nat.cast_add, Nat.cast_one] at key
    constructor
    · rw [← h, e2, gap_append _ _ _ _ (by rw [List.length_reverse, List.length_reverse, hlen]), gap_reverse _ _ hlen,
        gap_take_drop (t + 1) ice ice' hl]
      linarith
    · rw [← h, e2, List.length_append, List.length_append, List.length_reverse, List.length_reverse, hlen,
        List.length_drop, List.length_drop, hl]
  · have hg : ej[t]? = some ej[t] := List.getElem?_eq_getElem hte
    rw [C08_surface_shield_partial _ ice ej t ed shield _ hg (not_le.1 hs)] at h
    rw [C08_surface_shield_partial _ ice' ej t ed shield _ hg (not_le.1 hs)] at h'
    injection h with h
    injection h' with h'
    rw [← h, ← h']
    have : (0 : K) ≤ (t + 1) * (u * M) := by positivity
    exact ⟨by linarith, hl⟩

/-- **C153** So over all timesteps of a column without ballistic sedimentation the rounded result stays within
`N ^ 2` roundings of the exact one, for `N` timesteps. -/
theorem C153_steps {fl : K → K} {u M : K} (hfl : Rounding fl) (hu : 0 ≤ u) (hrel : RelErr fl u) (hM : Repr fl M)
    (ej : List K) (shield : K) : ∀ (ovs : List K) (t : Nat) (ice ice' r r' : List K),
    (∀ o ∈ ovs, 0 ≤ o ∧ o ≤ M) → (∀ x ∈ ice, 0 ≤ x ∧ x ≤ M ∧ Repr fl x) → (∀ x ∈ ice', 0 ≤ x) →
    ice.length = ice'.length → ice.length = t + ovs.length → ej.length = ice.length →
    overturnOnly fl shield false ej t ovs ice = .ok r →
    overturnOnly (fun x => x) shield false ej t ovs ice' = .ok r' →
    gap r r' ≤ gap ice ice' + ovs.length * ice.length * (u * M) := by
  intro ovs
  induction ovs with
  | nil =>
    intro t ice ice' r r' _ _ _ _ _ _ h h'
    cases h
    cases h'
    simp
  | cons o ovs ih =>
    intro t ice ice' r r' ho hi hi' hl hlen hej h h'
    rw [List.length_cons] at hlen
    obtain ⟨o0, oM⟩ := ho o (by simp)
    rw [overturnOnly] at h h'
    obtain ⟨m, h1, h2⟩ := bind_ok_inv h
    obtain ⟨m', h1', h2'⟩ := bind_ok_inv h'
    have h1 : erodeIceCannon fl ice ej t o shield = .ok m := h1
    have h1' : erodeIceCannon (fun x => x) ice' ej t o shield = .ok m' := h1'
    obtain ⟨k1, k2⟩ := C153_cannon hfl hu hrel hM ice ice' ej t o shield (fun x hx => ⟨(hi x hx).1, (hi x hx).2.1⟩)
      hi' o0 oM hl (by omega) (by omega) m m' h1 h1'
    obtain ⟨s1, s2⟩ := erodeLoop_safe hfl _ _ _ _ _ _ (fun x hx => (hi x hx).1) (fun x hx => (hi x hx).2.2) h1
    obtain ⟨s1', -⟩ := erodeLoop_safe Rounding.id _ _ _ _ _ _ hi' (fun _ _ => rfl) h1'
    have hml : m.length = ice.length := s1.length_eq.symm
    have hmM : ∀ x ∈ m, 0 ≤ x ∧ x ≤ M ∧ Repr fl x := by
      intro x hx
      obtain ⟨i, hi1⟩ := List.mem_iff_getElem?.1 hx
      have hil := (List.getElem?_eq_some_iff.1 hi1).1
      have := (forall₂_iff_getElem?.1 s1).2 i _ x (List.getElem?_eq_getElem (by omega)) hi1
      exact ⟨this.1, this.2.trans (hi _ (List.getElem_mem (by omega))).2.1, s2 x hx⟩
    have fin := ih (t + 1) m m' r r' (fun p hp => ho p (by simp [hp])) hmM (onlyLoses_nonneg s1') k2
      (by omega) (by omega) h2 h2'
    have hM0 : 0 ≤ M := o0.trans oM
    have ht : ((t : K) + 1) * (u * M) ≤ ice.length * (u * M) := by
      have : ((t : K) + 1) ≤ ice.length := by exact_mod_cast (show t + 1 ≤ ice.length by omega)
      exact mul_le_mul_of_nonneg_right this (mul_nonneg hu hM0)
    rw [hml] at fin
    rw [List.length_cons, Nat.cast_add, Nat.cast_one]
    linarith

end

/-- C153 applies to double precision, for which it says that a column of 425 timesteps with layers and depths up to
1024 m is right to a tenth of a micrometre. -/
theorem C153_double (ice ej ovs r r' : List ℚ) (shield : ℚ) (hN : ovs.length = 425) (hl : ice.length = 425)
    (hej : ej.length = 425) (ho : ∀ o ∈ ovs, 0 ≤ o ∧ o ≤ 1024)
    (hi : ∀ x ∈ ice, 0 ≤ x ∧ x ≤ 1024 ∧ Repr (roundFloat 52 none) x)
    (h : overturnOnly (roundFloat 52 none) shield false ej 0 ovs ice = .ok r)
    (h' : overturnOnly (fun x => x) shield false ej 0 ovs ice = .ok r') : gap r r' < 1 / 10000000 := by
  have hM : Repr (roundFloat 52 none : ℚ → ℚ) 1024 := by
    have := roundFloat_nat (K := ℚ) 52 1024 (by norm_num)
    show roundFloat 52 none (1024 : ℚ) = 1024
    simpa using this
  have := C153_steps (roundFloat_rounding 52 none) (by norm_num) (roundFloat_relErr 52) hM ej shield ovs 0 ice ice
    r r' ho hi (fun x hx => (hi x hx).1) rfl (by omega) (by omega) h h'
  rw [gap_self, hN, hl] at this
  refine this.trans_lt ?_
  norm_num

/-- C153: two layers of 0.1 and 0.33 m eroded by 0.15 m twice in doubles: the lower one is gone, the upper one
differs from the exact result. -/
example : overturnOnly (fun x => x) (4 / 10) false [0, 0] 0 [3 / 20, 3 / 20]
      ([roundFloat 52 none (1 / 10), roundFloat 52 none (1 / 3)] : List ℚ) =
        .ok [0, roundFloat 52 none (1 / 3) - 3 / 20] ∧
    overturnOnly (roundFloat 52 none) (4 / 10) false [0, 0] 0 [3 / 20, 3 / 20]
      ([roundFloat 52 none (1 / 10), roundFloat 52 none (1 / 3)] : List ℚ) =
        .ok [0, roundFloat 52 none (roundFloat 52 none (1 / 3) - 3 / 20)] ∧
    (roundFloat 52 none (roundFloat 52 none (1 / 3) - 3 / 20) : ℚ) ≠ roundFloat 52 none (1 / 3) - 3 / 20 := by
  decide +kernel

/-- C153 for one gardening in doubles of two layers of 0.1 + 0.2 m. -/
example : ∃ r r', gardenIceColumn (roundFloat 52 none)
      [roundFloat 52 none (roundFloat 52 none (1 / 10) + roundFloat 52 none (2 / 10)),
        roundFloat 52 none (roundFloat 52 none (1 / 10) + roundFloat 52 none (2 / 10))] [0, 0] (1 : Nat)
      (roundFloat 52 none (3 / 10)) 1 = .ok r ∧
    gardenIceColumn (fun x => x)
      [roundFloat 52 none (roundFloat 52 none (1 / 10) + roundFloat 52 none (2 / 10)),
        roundFloat 52 none (roundFloat 52 none (1 / 10) + roundFloat 52 none (2 / 10))] [0, 0] (1 : Nat)
      (roundFloat 52 none (3 / 10)) 1 = .ok r' ∧ r.length = r'.length ∧
    gap r r' ≤ 7 * (2 ^ (1 + 1) - 1) * (1 / 2 ^ (52 + 1) * (1 : ℚ)) := by
  apply C153_garden (roundFloat_rounding 52 none) (by norm_num) (roundFloat_relErr 52)
  · intro x hx
    have hx : x = roundFloat 52 none (roundFloat 52 none (1 / 10) + roundFloat 52 none (2 / 10)) := by simpa using hx
    rw [hx]
    exact ⟨by decide +kernel, (roundFloat_rounding 52 none).idem _, by decide +kernel⟩
  · intro x hx
    have hx : x = 0 := by simpa using hx
    rw [hx]
    exact ⟨le_rfl, by decide +kernel⟩
  · exact (roundFloat_rounding 52 none).idem _
  · decide +kernel
  all_goals norm_num

/-- **C153** Gardening after Costello et al. has no such guarantee.  A hundred layers of 0.3 m gardened to 0.3 m are
all lost; but 0.1 + 0.2 is above 0.3 in doubles, and with layers that thick almost half of the ice is kept. -/
theorem C153_cliff :
    gardenIceColumn (fun x => x) (List.replicate 100 (1 / 10 + 2 / 10)) (List.replicate 100 0) 99 (3 / 10) 1 =
      (.ok (List.replicate 100 0) : Except PyErr (List ℚ)) ∧
    ∃ r : List ℚ, gardenIceColumn (roundFloat 52 none)
        (List.replicate 100 (roundFloat 52 none (roundFloat 52 none (1 / 10) + roundFloat 52 none (2 / 10))))
        (List.replicate 100 0) 99 (roundFloat 52 none (3 / 10)) 1 = .ok r ∧ 13 < r.sum := by
  refine ⟨by decide +kernel, ?_⟩
  have h : (match gardenIceColumn (roundFloat 52 none)
        (List.replicate 100 (roundFloat 52 none (roundFloat 52 none (1 / 10) + roundFloat 52 none (2 / 10))))
        (List.replicate 100 0) 99 (roundFloat 52 none (3 / 10) : ℚ) 1 with
      | .ok r => decide (13 < r.sum)
      | .error _ => false) = true := by decide +kernel
  split at h
  · rename_i r hr
    exact ⟨r, hr, of_decide_eq_true h⟩
  · cases h

end MoonPIES
