import Verif.Spec.LayDown
import Verif.Lemmas.Run

/-!
# Lemmas on laying down a column
-/

namespace MoonPIES

open Spec

variable {K : Type} [Field K] [LinearOrder K]

theorem sink_snd (depth eff : K) : ∀ (l : List (K × K)) (d : K),
    (sink depth eff d l).map (·.2) = l.map (·.2) := by
  intro l
  induction l with
  | nil => intro d; rfl
  | cons p l ih =>
    intro d
    obtain ⟨x, e⟩ := p
    unfold sink
    split
    · simp only [List.map_cons, ih]
    · rfl

/-- The first `n` layers of a column, newest on top. -/
def pileOf (ice ej : List K) (n : Nat) : List (K × K) := ((ice.take n).zip (ej.take n)).reverse

omit [Field K] [LinearOrder K] in
theorem pileOf_succ {ice ej : List K} {n : Nat} {x e : K} (hx : ice[n]? = some x) (he : ej[n]? = some e) :
    pileOf ice ej (n + 1) = (x, e) :: pileOf ice ej n := by
  unfold pileOf
  rw [List.take_add_one, List.take_add_one, hx, he, Option.toList_some, Option.toList_some,
    List.zip_append, List.reverse_append]
  · rfl
  · have h1 := (List.getElem?_eq_some_iff.1 hx).1
    have h2 := (List.getElem?_eq_some_iff.1 he).1
    rw [List.length_take, List.length_take, min_eq_left h1.le, min_eq_left h2.le]

omit [Field K] [LinearOrder K] in
theorem pileOf_mk {l : List (K × K)} {ej : List K} {n : Nat} (r : List K)
    (h : l.map (·.2) = (ej.take n).reverse) (hn : n ≤ ej.length) :
    pileOf ((l.map (·.1)).reverse ++ r) ej n = l := by
  have hl : l.length = n := by
    have := congrArg List.length h
    rw [List.length_map, List.length_reverse, List.length_take, min_eq_left hn] at this
    exact this
  have h1 : ((l.map (·.1)).reverse ++ r).take n = (l.map (·.1)).reverse := by
    rw [List.take_append_of_le_length (by simp [hl])]
    exact List.take_of_length_le (by simp [hl])
  unfold pileOf
  rw [h1]
  have h2 : ej.take n = (l.map (·.2)).reverse := by rw [h, List.reverse_reverse]
  rw [h2, ← List.map_reverse, ← List.map_reverse, List.zip_map', List.map_id', List.reverse_reverse]

omit [Field K] [LinearOrder K] in
theorem pileOf_snd {ice ej : List K} {n : Nat} (hi : n ≤ ice.length) (he : n ≤ ej.length) :
    (pileOf ice ej n).map (·.2) = (ej.take n).reverse := by
  unfold pileOf
  rw [List.map_reverse]
  congr 1
  exact List.map_snd_zip (by rw [List.length_take, List.length_take]; omega)

variable [IsStrictOrderedRing K]

theorem garden_removed (d r depth : K) :
    (if d + r > depth then depth - d else r) = min r (depth - d) := by
  split
  · rw [min_eq_right]; linarith
  · rw [min_eq_left]; linarith

theorem garden_sink (ej : List K) (depth eff : K) : ∀ (n : Nat) (d : K) (ice : List K), n ≤ ice.length →
    n ≤ ej.length →
    gardenLoop (fun x => x) ej depth eff (2 * n) d ice =
      .ok (((sink depth eff d (pileOf ice ej n)).map (·.1)).reverse ++ ice.drop n) := by
  intro n
  induction n with
  | zero =>
    intro d ice _ _
    simp [pileOf, sink, gardenLoop]
  | succ n ih =>
    intro d ice hi he
    have hx : ice[n]? = some ice[n] := List.getElem?_eq_getElem hi
    have hy : ej[n]? = some ej[n] := List.getElem?_eq_getElem he
    have hpile : ∀ l : List (K × K), l = pileOf ice ej n →
        ((((ice[n], ej[n]) :: l).map (·.1)).reverse ++ ice.drop (n + 1)) = ice := by
      intro l hl
      rw [hl, List.map_cons, List.reverse_cons, List.append_assoc]
      have : ((pileOf ice ej n).map (·.1)).reverse = ice.take n := by
        unfold pileOf
        rw [List.map_reverse, List.reverse_reverse]
        exact List.map_fst_zip (by rw [List.length_take, List.length_take]; omega)
      rw [this]
      show ice.take n ++ (ice[n] :: ice.drop (n + 1)) = ice
      rw [← List.drop_eq_getElem_cons, List.take_append_drop]
    rw [pileOf_succ hx hy, sink]
    have e1 : (2 * n + 1) % 2 = 1 := by omega
    have e2 : (2 * n + 1) / 2 = n := by omega
    have e3 : (2 * n) % 2 ≠ 1 := by omega
    have e4 : (2 * n) / 2 = n := by omega
    rw [show 2 * (n + 1) = 2 * n + 1 + 1 by ring, gardenLoop]
    by_cases h1 : d < depth
    · rw [if_pos h1, if_pos e1, e2, hy]
      simp only []
      rw [gardenLoop]
      by_cases h2 : d + ej[n] < depth
      · rw [if_pos h2, if_neg e3, e4, hx, if_pos ⟨h1, h2⟩]
        simp only []
        rw [garden_removed, ih _ _ (by rw [List.length_set]; omega) (by omega)]
        have hp : ∀ y, pileOf (ice.set n y) ej n = pileOf ice ej n := by
          intro y
          unfold pileOf
          rw [List.take_set_of_le (le_refl n)]
        rw [hp]
        simp only [List.map_cons, List.reverse_cons, List.append_assoc]
        congr 2
        rw [List.drop_eq_getElem_cons (by rw [List.length_set]; exact hi), List.getElem_set_self,
          List.drop_set_of_lt (by omega)]
        rfl
      · rw [if_neg h2, if_neg (by rintro ⟨-, h⟩; exact h2 h), hpile _ rfl]
    · rw [if_neg h1, if_neg (by rintro ⟨h, -⟩; exact h1 h), hpile _ rfl]

theorem updateIceCol_pile {shield : K} {ice ej r : List K} {t : Nat} {ov bd bf : K} (hi : t < ice.length)
    (he : t < ej.length) (h : updateIceCol (fun x => x) shield true ice ej t ov bd bf = .ok r) {x e : K}
    (hx : ice[t]? = some x) (hy : ej[t]? = some e) :
    pileOf r ej (t + 1) = sink ov 1 0 ((x, e) :: sink bd bf 0 (pileOf ice ej t)) ∧
      r.drop (t + 1) = ice.drop (t + 1) ∧ r.length = ice.length := by
  obtain ⟨m, h1, h2⟩ := updateIceCol_split h
  unfold removeIceOverturn at h2
  rw [if_pos rfl] at h2
  unfold gardenIceColumn at h2
  rw [garden_sink _ _ _ _ _ _ hi.le he.le] at h1
  injection h1 with h1
  have hlen : (sink bd bf 0 (pileOf ice ej t)).length = t := by
    have := congrArg List.length (sink_snd bd bf (pileOf ice ej t) 0)
    rw [List.length_map, List.length_map] at this
    rw [this]
    simp only [pileOf, List.length_reverse, List.length_zip, List.length_take]
    omega
  have hm : m.length = ice.length := by
    rw [← h1, List.length_append, List.length_reverse, List.length_map, hlen, List.length_drop]
    omega
  have hmx : m[t]? = some x := by
    rw [← h1, List.getElem?_append_right (by simp [hlen])]
    simp [hlen, hx]
  have hmp : pileOf m ej t = sink bd bf 0 (pileOf ice ej t) := by
    rw [← h1]
    exact pileOf_mk _ (by rw [sink_snd, pileOf_snd hi.le he.le]) he.le
  have hmd : m.drop (t + 1) = ice.drop (t + 1) := by
    rw [← h1, List.drop_append]
    simp [hlen]
  rw [show (2 * (t : Int) + 2).toNat = 2 * (t + 1) by omega,
    garden_sink _ _ _ _ _ _ (by omega) (by omega), pileOf_succ hmx hy, hmp] at h2
  injection h2 with h2
  have hs : (sink ov 1 0 ((x, e) :: sink bd bf 0 (pileOf ice ej t))).map (·.2) = (ej.take (t + 1)).reverse := by
    rw [sink_snd, ← hmp, ← pileOf_succ hmx hy, pileOf_snd (by omega) (by omega)]
  have hl2 : (sink ov 1 0 ((x, e) :: sink bd bf 0 (pileOf ice ej t))).length = t + 1 := by
    have := congrArg List.length hs
    rw [List.length_map, List.length_reverse, List.length_take] at this
    omega
  refine ⟨?_, ?_, ?_⟩
  · rw [← h2]
    exact pileOf_mk _ hs (by omega)
  · rw [← h2, List.drop_append, ← hmd]
    simp [hl2]
  · rw [← h2, List.length_append, List.length_reverse, List.length_map, hl2, List.length_drop]
    omega

/-- The events of the timesteps from `t` on of a column. -/
theorem updateFrom_layDown {shield : K} {names : List String} (hnd : names.Nodup) {bd bf : List (List K)}
    {j : Nat} {name : String} (hj : names[j]? = some name) : ∀ (ovs : List K) (t : Nat)
    (cols cols' : PyDict (StratCol K)) (c : StratCol K),
    updateStratColsFrom (fun x => x) shield true names bd bf t ovs cols = .ok cols' →
    cols.get name = .ok c → c.ice.length = t + ovs.length → c.ej.length = t + ovs.length →
    ∃ (c' : StratCol K) (vs : List (Event K)), cols'.get name = .ok c' ∧ c'.ej = c.ej ∧ c'.src = c.src ∧
      vs.map (·.ice) = c.ice.drop t ∧ vs.map (·.ej) = c.ej.drop t ∧ vs.map (·.overturn) = ovs ∧
      (∀ (i : Nat) v, vs[i]? = some v → pyGet2 bd (t + i) j = .ok v.bsedDepth ∧
        pyGet2 bf (t + i) j = .ok v.bsedFrac) ∧
      c'.ice = ((layDown (pileOf c.ice c.ej t) vs).map (·.1)).reverse := by
  intro ovs
  induction ovs with
  | nil =>
    intro t cols cols' c h hc hi he
    cases h
    simp only [List.length_nil, Nat.add_zero] at hi he
    refine ⟨c, [], hc, rfl, rfl, ?_, ?_, rfl, by simp, ?_⟩
    · rw [List.drop_of_length_le (by omega)]; rfl
    · rw [List.drop_of_length_le (by omega)]; rfl
    · unfold layDown pileOf
      rw [List.map_reverse, List.reverse_reverse, List.map_fst_zip (by simp; omega)]
      exact (List.take_of_length_le (by omega)).symm
  | cons ov rest ih =>
    intro t cols cols' c h hc hi he
    rw [List.length_cons] at hi he
    obtain ⟨mid, h1, h2⟩ := updateFrom_cons h
    obtain ⟨c₁, d, f, ice, g1, g2, g3, g4, g5⟩ := updateTraps_get hnd hj h1
    rw [hc] at g1; cases g1
    rw [Nat.zero_add] at g2 g3
    have hti : t < c.ice.length := by omega
    have hte : t < c.ej.length := by omega
    obtain ⟨k1, k2, k3⟩ := updateIceCol_pile hti hte g4 (List.getElem?_eq_getElem hti)
      (List.getElem?_eq_getElem hte)
    obtain ⟨c', vs, m1, m2, m3, m4, m5, m6, m7, m8⟩ := ih (t + 1) mid cols' _ h2 g5
      (by show ice.length = _; omega) (by show c.ej.length = _; omega)
    refine ⟨c', ⟨c.ice[t], c.ej[t], ov, d, f⟩ :: vs, m1, m2, m3, ?_, ?_, ?_, ?_, ?_⟩
    · rw [List.map_cons, m4, List.drop_eq_getElem_cons hti]
      exact congrArg _ k2
    · rw [List.map_cons, m5, List.drop_eq_getElem_cons hte]
    · rw [List.map_cons, m6]
    · intro i v hv
      cases i with
      | zero => injection hv with hv; subst hv; exact ⟨g2, g3⟩
      | succ i =>
        have := m7 i v hv
        rw [show t + (i + 1) = t + 1 + i by omega]
        exact this
    · rw [m8, layDown]
      simp only []
      rw [k1]

end MoonPIES
