import Verif.Props.PerStep
import Verif.Props.CannonRun
import Verif.Props.Rate
import Verif.Props.Frame

/-!
# C167: gardening after Costello et al. against the erosion of Cannon et al.
-/

namespace MoonPIES

open Spec

section
variable {K : Type} [Field K] [LinearOrder K] [IsStrictOrderedRing K]

/-- The ice of a pile of layers is at most that of another pile, layer by layer. -/
abbrev Below (l : List (K × K)) (st : List K) : Prop := List.Forall₂ (fun p x => p.1 ≤ x) l st

theorem sink_below (depth : K) {eff : K} (h0 : 0 ≤ eff) (h1 : eff ≤ 1) : ∀ (l : List (K × K)) (st : List K) (d : K),
    (∀ p ∈ l, 0 ≤ p.1 ∧ 0 ≤ p.2) → Below l st →
    Below (sink depth eff d l) st ∧ ∀ p ∈ sink depth eff d l, 0 ≤ p.1 ∧ 0 ≤ p.2
  | [], [], _, _, _ => ⟨.nil, by simp [sink]⟩
  | (x, e) :: l, y :: st, d, hl, h => by
    obtain ⟨hx, he⟩ := hl (x, e) (by simp)
    replace h := List.forall₂_cons.1 h
    rw [sink]
    split
    · rename_i hd
      obtain ⟨k1, k2⟩ := sink_below depth h0 h1 l st (d + e + (x - min (x * eff) (depth - (d + e))))
        (fun p hp => hl p (List.mem_cons_of_mem _ hp)) h.2
      have m0 : 0 ≤ min (x * eff) (depth - (d + e)) := le_min (mul_nonneg hx h0) (by linarith [hd.2])
      have m1 : min (x * eff) (depth - (d + e)) ≤ x :=
        (min_le_left _ _).trans (mul_le_of_le_one_right hx h1)
      refine ⟨.cons (by have := h.1; simp only at this ⊢; linarith) k1, ?_⟩
      intro p hp
      rcases List.mem_cons.1 hp with rfl | hp
      · exact ⟨by simp only; linarith, he⟩
      · exact k2 p hp
    · exact ⟨.cons h.1 h.2, hl⟩

/-- Where what is to be eroded fits below all the ejecta, gardening takes at least as much from each layer. -/
theorem sink_eat (depth : K) : ∀ (l : List (K × K)) (st : List K) (d r : K), (∀ p ∈ l, 0 ≤ p.1 ∧ 0 ≤ p.2) →
    Below l st → d + (l.map (·.2)).sum + r ≤ depth → Below (sink depth 1 d l) (eat r st)
  | [], [], _, _, _, _, _ => .nil
  | (x, e) :: l, y :: st, d, r, hl, h, hd => by
    obtain ⟨hx, he⟩ := hl (x, e) (by simp)
    have hl' : ∀ p ∈ l, 0 ≤ p.1 ∧ 0 ≤ p.2 := fun p hp => hl p (List.mem_cons_of_mem _ hp)
    replace h := List.forall₂_cons.1 h
    have hs : 0 ≤ (l.map (·.2)).sum := List.sum_nonneg (by
      intro z hz
      obtain ⟨p, hp, rfl⟩ := List.mem_map.1 hz
      exact (hl' p hp).2)
    rw [List.map_cons, List.sum_cons] at hd
    have hxy := h.1
    simp only at hd hxy hx he
    rw [sink, eat]
    by_cases hry : r ≤ y
    · rw [if_pos hry]
      split
      · rw [mul_one]
        refine .cons ?_ (sink_below depth zero_le_one le_rfl l st _ hl' h.2).1
        simp only
        rcases le_total x (depth - (d + e)) with hm | hm
        · rw [min_eq_left hm]; linarith
        · rw [min_eq_right hm]; linarith
      · rename_i hc
        refine .cons ?_ h.2
        simp only
        by_contra hlt
        push Not at hlt
        exact hc ⟨by linarith, by linarith⟩
    · push Not at hry
      rw [if_neg (not_le.2 hry), if_pos ⟨by linarith, by linarith⟩, mul_one,
        min_eq_left (by linarith), sub_self, add_zero]
      exact .cons le_rfl (sink_eat depth l st (d + e) (r - y) hl' h.2 (by linarith))

/-- The same where the topmost layer has as much ice as is to be eroded. -/
theorem sink_eat_top (depth : K) (x e : K) (l : List (K × K)) (y : K) (st : List K) (d r : K)
    (hl : ∀ p ∈ l, 0 ≤ p.1 ∧ 0 ≤ p.2) (hxy : x ≤ y) (h : Below l st) (he : 0 ≤ e) (hr : r ≤ y)
    (hd : d + e + r ≤ depth) : Below (sink depth 1 d ((x, e) :: l)) (eat r (y :: st)) := by
  rw [sink, eat, if_pos hr]
  split
  · rw [mul_one]
    refine .cons ?_ (sink_below depth zero_le_one le_rfl l st _ hl h).1
    simp only
    rcases le_total x (depth - (d + e)) with hm | hm
    · rw [min_eq_left hm]; linarith
    · rw [min_eq_right hm]; linarith
  · rename_i hc
    refine .cons ?_ h
    simp only
    by_contra hlt
    push Not at hlt
    exact hc ⟨by linarith, by linarith⟩

/-- Where, at every timestep, either erosion is shielded or what it takes fits below the ejecta that it passes, the
layers laid down with gardening hold no more ice than the pile with erosion. -/
theorem layDown_pile (shield ed : K) : ∀ (vs : List (Event K)) (l : List (K × K)) (st : List K),
    (∀ v ∈ vs, 0 ≤ v.ice ∧ 0 ≤ v.ej ∧ 0 ≤ v.bsedFrac ∧ v.bsedFrac ≤ 1) → (∀ p ∈ l, 0 ≤ p.1 ∧ 0 ≤ p.2) →
    Below l st →
    (∀ (t : Nat) v, vs[t]? = some v → shield < v.ej ∨ (ed ≤ v.ice ∧ ed + v.ej ≤ v.overturn) ∨
      ed + ((l.map (·.2)).sum + ((vs.take (t + 1)).map (·.ej)).sum) ≤ v.overturn) →
    Below (layDown l vs) (pile shield ed st (vs.map fun v => (v.ice, v.ej)))
  | [], l, st, _, _, h, _ => h
  | v :: vs, l, st, hv, hl, h, hc => by
    obtain ⟨v1, v2, v3, v4⟩ := hv v (by simp)
    obtain ⟨b1, b2⟩ := sink_below v.bsedDepth v3 v4 l st 0 hl h
    have n1 : ∀ p ∈ (v.ice, v.ej) :: sink v.bsedDepth v.bsedFrac 0 l, 0 ≤ p.1 ∧ 0 ≤ p.2 := by
      intro p hp
      rcases List.mem_cons.1 hp with rfl | hp
      · exact ⟨v1, v2⟩
      · exact b2 p hp
    have c1 : Below ((v.ice, v.ej) :: sink v.bsedDepth v.bsedFrac 0 l) (v.ice :: st) := .cons le_rfl b1
    have c2 := sink_below v.overturn zero_le_one le_rfl _ _ 0 n1 c1
    rw [layDown, List.map_cons, pile]
    apply layDown_pile shield ed vs _ _ (fun w hw => hv w (List.mem_cons_of_mem _ hw)) c2.2
    · split
      · rename_i he
        rcases hc 0 v rfl with h0 | ⟨h0, h0'⟩ | h0
        · exact absurd he (not_le.2 h0)
        · exact sink_eat_top _ _ _ _ _ _ _ _ b2 le_rfl b1 v2 h0 (by linarith)
        · refine sink_eat _ _ _ _ _ n1 c1 ?_
          rw [List.map_cons, List.sum_cons, sink_snd]
          simp only [List.take_succ_cons, List.take_zero, List.map_cons, List.map_nil, List.sum_cons, List.sum_nil] at h0
          simp only
          linarith
      · exact c2.1
    · intro t w hw
      rcases hc (t + 1) w hw with h0 | h0 | h0
      · exact .inl h0
      · exact .inr (.inl h0)
      · refine .inr (.inr ?_)
        rw [sink_snd, List.map_cons, List.sum_cons, sink_snd]
        rw [List.take_succ_cons, List.map_cons, List.sum_cons] at h0
        simp only
        linarith

/-- Under ejecta at least as thick as the depth of gardening nothing is lost to gardening. -/
theorem layDown_covered : ∀ (vs : List (Event K)) (l : List (K × K)),
    (∀ v ∈ vs, v.overturn ≤ v.ej ∧ v.bsedDepth ≤ 0) →
    layDown l vs = (vs.map fun v => (v.ice, v.ej)).reverse ++ l
  | [], _, _ => rfl
  | v :: vs, l, h => by
    obtain ⟨h1, h2⟩ := h v (by simp)
    rw [layDown, sink_no_depth h2, sink, if_neg (by rintro ⟨-, h'⟩; linarith),
      layDown_covered vs _ (fun w hw => h w (List.mem_cons_of_mem _ hw)), List.map_cons, List.reverse_cons,
      List.append_assoc]
    rfl

theorem eat_below : ∀ (l : List K) (ed : K), (∀ x ∈ l, 0 ≤ x) → 0 ≤ ed → List.Forall₂ (· ≤ ·) (eat ed l) l
  | [], _, _, _ => .nil
  | x :: l, ed, h, hed => by
    rw [eat]
    split
    · exact .cons (by linarith) (List.forall₂_same.2 fun _ _ => le_rfl)
    · rename_i hx
      push Not at hx
      exact .cons (h x (by simp)) (eat_below l _ (fun y hy => h y (List.mem_cons_of_mem _ hy)) (by linarith))

theorem pile_below (shield ed : K) (hed : 0 ≤ ed) : ∀ (r : List (K × K)) (st st' : List K), (∀ x ∈ st, 0 ≤ x) →
    (∀ p ∈ r, 0 ≤ p.1) → List.Forall₂ (· ≤ ·) st st' →
    List.Forall₂ (· ≤ ·) (pile shield ed st r) ((r.map (·.1)).reverse ++ st')
  | [], st, st', _, _, h => h
  | (y, e) :: r, st, st', hst, hr, h => by
    have h0 : ∀ x ∈ y :: st, 0 ≤ x := by
      intro x hx
      rcases List.mem_cons.1 hx with rfl | hx
      · exact hr _ (List.mem_cons_self ..)
      · exact hst x hx
    have hr' : ∀ p ∈ r, 0 ≤ p.1 := fun p hp => hr p (List.mem_cons_of_mem _ hp)
    rw [pile, List.map_cons, List.reverse_cons, List.append_assoc, List.singleton_append]
    split
    · refine pile_below shield ed hed r _ _ (eat_nonneg _ _ h0) hr' ?_
      have k1 := eat_below (y :: st) ed h0 hed
      have k2 : List.Forall₂ (· ≤ ·) (y :: st) (y :: st') := .cons le_rfl h
      rw [forall₂_iff_getElem?] at k1 k2 ⊢
      refine ⟨k1.1.trans k2.1, fun i a b ha hb => ?_⟩
      have hi : i < (y :: st).length := by rw [k2.1]; exact (List.getElem?_eq_some_iff.1 hb).1
      exact (k1.2 i a _ ha (List.getElem?_eq_getElem hi)).trans (k2.2 i _ b (List.getElem?_eq_getElem hi) hb)
    · exact pile_below shield ed hed r _ _ h0 hr' (.cons le_rfl h)

end

variable {σ : Type}

/-- The configuration with the erosion of Cannon et al. and without ballistic sedimentation. -/
def eroded (c : RunCfg) : RunCfg := { c with impact_gardening_costello := false, ballistic_sed := false }

theorem iceCols_eroded (g : Gen σ) (c : RunCfg) (d : RunData) (df : CraterTable) (time : List ℝ) (s : σ) :
    iceCols g (eroded c) d df time s = iceCols g c d df time s :=
  iceCols_same_parts g (c := c) (c' := eroded c) d df time (fun t => polarIce_losses g c (eroded c) (readLuminosity d.lum) df time t)
    (fun _ _ _ => rfl) rfl (fun _ _ => rfl) s

/-- The depth of gardening after Costello et al. at time `t`. -/
noncomputable def gardenedTo (c : RunCfg) (t : ℝ) : ℝ :=
  c.overturn_depth_present * (1 + c.overturn_ancient_slope * max 0 (t - c.overturn_ancient_t0))

theorem overturnCostello_eq (c : RunCfg) (t : ℝ) : overturnCostello c.overturn t = gardenedTo c t := by
  unfold overturnCostello gardenedTo
  show (if t > c.overturn_ancient_t0 then _ else _) = _
  split
  · rename_i h
    rw [max_eq_right (by linarith)]
    show 1 * c.overturn_depth_present * (c.overturn_ancient_slope * (t - c.overturn_ancient_t0) + 1) = _
    ring
  · rename_i h
    rw [max_eq_left (by linarith)]
    show 1 * c.overturn_depth_present = _
    ring

theorem bsed_off_zero (c : RunCfg) (d : RunData) (hbs : c.ballistic_sed = false) (time : List ℝ) (df : CraterTable)
    (dists : List (List (Option ℝ))) (thick bd bf : List (List ℝ))
    (h : bsedArrays c d time df dists thick = .ok (bd, bf)) : ∀ row ∈ bd, ∀ x ∈ row, x ≤ 0 := by
  unfold bsedArrays at h
  obtain ⟨o, ho, h⟩ := bind_ok_inv h
  injection h with h
  injection h with hb1 hb2
  obtain ⟨o', ho', -, hz⟩ := C51_off c.bsed d.melt (mixingRatio c.mixing_ratio_petro c.mixing_ratio_a
    c.mixing_ratio_b) time (df.map (·.age)) (df.map (·.rest.crater.isbasin))
    ((List.range c.coldtrap_names.length).map (fun i => (column dists i, column thick i))) hbs
  rw [ho'] at ho
  injection ho with ho
  subst ho
  rw [← hb1]
  intro row hrow x hx
  obtain ⟨i, -, rfl⟩ := List.mem_map.1 hrow
  obtain ⟨l, hl, hxl⟩ := mem_column hx
  obtain ⟨p, hp, rfl⟩ := List.mem_map.1 hl
  exact ((hz p hp).2.2.1 x hxl).le

/-- **C167** A run with gardening after Costello et al., with or without ballistic sedimentation, and a run with the
erosion of Cannon et al. that is otherwise the same: both get the same ice and ejecta.  If at every timestep either
erosion is shielded, or the depth of gardening exceeds the ejecta there are by what is eroded, or the ice delivered is
at least what is eroded and the depth of gardening exceeds the ejecta on it by as much, then gardening leaves no more
ice in any layer.  If at every timestep the ejecta are as thick as gardening is deep and there is no sedimentation,
then gardening leaves all ice, and at least as much in each layer as erosion. -/
theorem C167_run (g : Gen σ) (hg : LawfulGen g) (c : RunCfg) (d : RunData) (hc : PhysicalCfg c)
    (hd : PhysicalData c d) (hl : Lunar c d) (hnd : c.coldtrap_names.Nodup)
    (hcost : c.impact_gardening_costello = true) (b : ℝ) (hb : 0 ≤ b)
    (hrate : c.ice_erosion_rate * (c.timestep / 1e7) = b) (out out' : CsvOut)
    (hrun : runMain g c d = .ok out) (hrun' : runMain g (eroded c) d = .ok out') (j : Nat) (name : String)
    (hj : c.coldtrap_names[j]? = some name) :
    ∃ (df : CraterTable) (s s' : σ) (time : List ℝ) (delivered : List (List ℝ)) (ys ice ice' ej : List ℝ),
      craterBasinList g c d (g.init c.seed) = .ok (df, s) ∧
      getTimeArray c.timestart c.timeend c.timestep = .ok time ∧
      iceCols g c d df time s = .ok (delivered, s') ∧
      ys.length = time.length ∧ ej.length = time.length ∧
      (∀ (i : Nat) y, ys[i]? = some y → (delivered[i]?).bind (·[j]?) = some y) ∧
      out.ice.get name = .ok ice ∧ out'.ice.get name = .ok ice' ∧
      out.ej.get name = .ok ej ∧ out'.ej.get name = .ok ej ∧
      ((∀ (i : Nat) t y e, time[i]? = some t → ys[i]? = some y → ej[i]? = some e →
        0.4 < e ∨ b + (ej.take (i + 1)).sum ≤ gardenedTo c t ∨ (b ≤ y ∧ b + e ≤ gardenedTo c t)) →
        List.Forall₂ (· ≤ ·) ice ice') ∧
      (c.ballistic_sed = false → (∀ (i : Nat) t e, time[i]? = some t → ej[i]? = some e → gardenedTo c t ≤ e) →
        ice = ys ∧ List.Forall₂ (· ≤ ·) ice' ice) := by
  have hc' : PhysicalCfg (eroded c) := { hc with }
  have hd' : PhysicalData (eroded c) d := { hd with }
  obtain ⟨df, s, time, delivered, s', dists, thick, bd, bf, h1, h2, h3, h4, h5, h6, h7⟩ :=
    C142_run g hg c d hc hd hnd hcost out hrun
  obtain ⟨ice, ej, vs, k1, k2, k3, k4, k5, k6, k7⟩ := h7 j name hj
  obtain ⟨icex, ejx, table, q1, q2, q3, q4, q5, -⟩ := C85_run_tables_partial g hg c d hc hd hl hnd out hrun name
    (List.mem_of_getElem? hj)
  rw [k2] at q2
  injection q2 with q2
  subst q2
  obtain ⟨df', t, time', del', t', b1, b2, b3, b4, b5⟩ := C110_run g hg (eroded c) d hc' hd' hnd rfl rfl
    (by show 0 ≤ c.ice_erosion_rate * (c.timestep / 1e7); rw [hrate]; exact hb) out' hrun'
  obtain ⟨ys, ice', ej', c1, c2, c3, c4, c5, c6, -, -⟩ := b5 j name hj
  -- the same deliveries
  have hdf : (Except.ok (df', t) : Except PyErr _) = .ok (df, s) := b1.symm.trans h1
  injection hdf with hdf
  injection hdf with hdf hs
  subst hdf hs
  have ht : (Except.ok time' : Except PyErr _) = .ok time := b2.symm.trans h2
  injection ht with ht
  subst ht
  rw [iceCols_eroded, h3] at b3
  injection b3 with b3
  injection b3 with b3 b3'
  subst b3 b3'
  -- the same ejecta
  obtain ⟨ej'', e1, e2⟩ := C121_ejecta g hg c (eroded c) d d
    ⟨rfl, rfl, rfl, rfl, rfl, rfl, rfl, rfl, rfl, rfl, rfl, rfl, rfl⟩ rfl rfl hc hc' hd hd' hnd
    out out' hrun hrun' name (List.mem_of_getElem? hj)
  rw [k2] at e1
  injection e1 with e1
  rw [c4] at e2
  injection e2 with e2
  subst e1 e2
  have hys : vs.map (·.ice) = ys := by
    apply List.ext_getElem?
    intro i
    rcases Nat.lt_or_ge i vs.length with hi | hi
    · obtain ⟨m1, -, -⟩ := k6 i _ (List.getElem?_eq_getElem hi)
      rw [List.getElem?_map, List.getElem?_eq_getElem hi, Option.map_some]
      cases hr : delivered[i]? with
      | none => rw [hr] at m1; cases m1
      | some row => rw [hr, Option.bind_some] at m1; rw [(c2 i row hr).1, m1]
    · rw [List.getElem?_eq_none (by rw [List.length_map]; exact hi), List.getElem?_eq_none (by omega)]
  have hzip : vs.map (fun v => (v.ice, v.ej)) = ys.zip ej' := by
    rw [← hys, ← k4, List.zip_map']
  have hne : time' ≠ [] ∨ vs = [] := by
    rcases time' with _ | ⟨a, l⟩
    · exact .inr (List.length_eq_zero_iff.1 k3)
    · exact .inl (by simp)
  have hall : ∀ w ∈ vs, 0 ≤ w.ice ∧ 0 ≤ w.ej ∧ 0 ≤ w.bsedFrac ∧ w.bsedFrac ≤ 1 := by
    intro w hw
    have hne : time' ≠ [] := hne.resolve_right (List.ne_nil_of_mem hw)
    obtain ⟨rows, s3, i1, i2, i3⟩ := iceCols_ok g hg hc hd df' (craterBasinList_rad g hd _ _ _ h1) time' hne t
    rw [h3] at i1
    injection i1 with i1
    injection i1 with i1 _
    subst i1
    obtain ⟨-, -, -, -, b5⟩ := bsedArrays_ok_inv c d hd time' hne df' dists thick bd bf h6
    obtain ⟨n, hn⟩ := List.mem_iff_getElem?.1 hw
    obtain ⟨m1, -, m3⟩ := k6 n w hn
    refine ⟨?_, q5 _ (by rw [← k4]; exact List.mem_map_of_mem hw), ?_⟩
    · cases hr : delivered[n]? with
      | none => rw [hr] at m1; cases m1
      | some row =>
        rw [hr, Option.bind_some] at m1
        exact (i3 row (List.mem_of_getElem? hr)).2 _ (List.mem_of_getElem? m1)
    · cases hr : bf[n]? with
      | none => rw [hr] at m3; cases m3
      | some row =>
        rw [hr, Option.bind_some] at m3
        exact b5 row (List.mem_of_getElem? hr) _ (List.mem_of_getElem? m3)
  -- depth and ejecta of each event
  have hev : ∀ (n : Nat) w, vs[n]? = some w → ∃ u, time'[n]? = some u ∧ w.overturn = gardenedTo c u ∧
      ej'[n]? = some w.ej ∧ ys[n]? = some w.ice := by
    intro n w hw
    have hn : n < time'.length := by rw [← k3]; exact (List.getElem?_eq_some_iff.1 hw).1
    refine ⟨_, List.getElem?_eq_getElem hn, ?_, ?_, ?_⟩
    · have a : (vs.map (·.overturn))[n]? = some w.overturn := by rw [List.getElem?_map, hw]; rfl
      rw [k5] at a
      unfold overturnDepth at a
      rw [if_pos (by exact hcost), List.getElem?_map, List.getElem?_eq_getElem hn] at a
      injection a with a
      rw [← a, overturnCostello_eq]
    · rw [← k4, List.getElem?_map, hw]; rfl
    · rw [← hys, List.getElem?_map, hw]; rfl
  have hice' : ice' = (pile 0.4 b [] (vs.map fun v => (v.ice, v.ej))).reverse := by
    rw [hzip, c6]
    show (pile 0.4 (c.ice_erosion_rate * (c.timestep / 1e7)) [] (ys.zip ej')).reverse = _
    rw [hrate]
  refine ⟨df', t, s', time', delivered, ys, ice, ice', ej', h1, h2, h3, c1, c5, ?_, k1, c3, k2, c4, ?_, ?_⟩
  · intro i y hy
    rw [← hys, List.getElem?_map] at hy
    cases hv : vs[i]? with
    | none => rw [hv] at hy; cases hy
    | some v => rw [hv] at hy; injection hy with hy; rw [← hy]; exact (k6 i v hv).1
  · intro hcond
    have key := layDown_pile 0.4 b vs [] [] hall (by simp) .nil (by
      intro n w hw
      obtain ⟨u, u1, u2, u3, u4⟩ := hev n w hw
      rw [List.map_nil, List.sum_nil, zero_add, List.map_take, k4, u2]
      rcases hcond n u w.ice w.ej u1 u4 u3 with h0 | h0 | h0
      · exact .inl h0
      · exact .inr (.inr h0)
      · exact .inr (.inl h0))
    rw [k7, hice', List.forall₂_reverse_iff, List.forall₂_map_left_iff]
    exact key
  · intro hbs hcond
    have hlay := layDown_covered vs [] (by
      intro w hw
      obtain ⟨n, hn⟩ := List.mem_iff_getElem?.1 hw
      obtain ⟨u, u1, u2, u3, u4⟩ := hev n w hn
      refine ⟨by rw [u2]; exact hcond n u w.ej u1 u3, ?_⟩
      obtain ⟨-, m2, -⟩ := k6 n w hn
      cases hr : bd[n]? with
      | none => rw [hr] at m2; cases m2
      | some row =>
        rw [hr, Option.bind_some] at m2
        exact bsed_off_zero c d hbs time' df' dists thick bd bf h6 row (List.mem_of_getElem? hr) _
          (List.mem_of_getElem? m2))
    have hi : ice = ys := by
      rw [k7, hlay, List.append_nil, List.map_reverse, List.reverse_reverse, List.map_map, ← hys]
      rfl
    refine ⟨hi, ?_⟩
    have key := pile_below 0.4 b hb (vs.map fun v => (v.ice, v.ej)) [] [] (by simp) (by
      intro p hp
      obtain ⟨w, hw, rfl⟩ := List.mem_map.1 hp
      exact (hall w hw).1) .nil
    rw [hice', hi, ← hys, ← List.reverse_reverse (vs.map (·.ice)), List.forall₂_reverse_iff]
    rw [List.append_nil, List.map_map] at key
    exact key

/-- The configuration with another present depth of gardening. -/
def withDepth (c : RunCfg) (depth : ℝ) : RunCfg := { c with overturn_depth_present := depth }

/-- **C167** whatever the configuration and the cold trap, there is a depth from which on gardening leaves no more ice
in any layer than erosion. -/
theorem C167_deep (g : Gen σ) (hg : LawfulGen g) (c : RunCfg) (d : RunData) (hc : PhysicalCfg c)
    (hd : PhysicalData c d) (hl : Lunar c d) (hnd : c.coldtrap_names.Nodup)
    (hcost : c.impact_gardening_costello = true) (hslope : 0 ≤ c.overturn_ancient_slope)
    (hrate : 0 ≤ c.ice_erosion_rate * (c.timestep / 1e7)) (out₀ : CsvOut) (hrun₀ : runMain g c d = .ok out₀)
    (j : Nat) (name : String) (hj : c.coldtrap_names[j]? = some name) :
    ∃ depth₀, ∀ depth, depth₀ ≤ depth → ∀ out out', runMain g (withDepth c depth) d = .ok out →
      runMain g (eroded (withDepth c depth)) d = .ok out' →
      ∃ ice ice', out.ice.get name = .ok ice ∧ out'.ice.get name = .ok ice' ∧ List.Forall₂ (· ≤ ·) ice ice' := by
  obtain ⟨icex, ej, table, q1, q2, q3, q4, q5, -⟩ := C85_run_tables_partial g hg c d hc hd hl hnd out₀ hrun₀ name
    (List.mem_of_getElem? hj)
  have hej : 0 ≤ ej.sum := List.sum_nonneg q5
  refine ⟨c.ice_erosion_rate * (c.timestep / 1e7) + ej.sum, fun depth hdep out out' hrun hrun' => ?_⟩
  have hc' : PhysicalCfg (withDepth c depth) := { hc with }
  have hd' : PhysicalData (withDepth c depth) d := { hd with }
  have hl' : Lunar (withDepth c depth) d := { hl with }
  obtain ⟨df, s, s', time, delivered, ys, ice, ice', ej', -, -, -, -, -, -, k1, k2, k3, -, k5, -⟩ :=
    C167_run g hg (withDepth c depth) d hc' hd' hl' hnd hcost _ hrate rfl out out' hrun hrun' j name hj
  obtain ⟨ej'', e1, e2⟩ := C121_ejecta g hg c (withDepth c depth) d d
    ⟨rfl, rfl, rfl, rfl, rfl, rfl, rfl, rfl, rfl, rfl, rfl, rfl, rfl⟩ rfl rfl hc hc' hd hd' hnd
    out₀ out hrun₀ hrun name (List.mem_of_getElem? hj)
  rw [q2] at e1
  injection e1 with e1
  rw [k3] at e2
  injection e2 with e2
  subst e1 e2
  refine ⟨ice, ice', k1, k2, k5 ?_⟩
  intro i t y e _ _ _
  refine .inr (.inl ?_)
  have h1 : (ej'.take (i + 1)).sum ≤ ej'.sum := by
    conv_rhs => rw [← List.take_append_drop (i + 1) ej', List.sum_append]
    have : 0 ≤ (ej'.drop (i + 1)).sum := List.sum_nonneg fun x hx => q5 x (List.mem_of_mem_drop hx)
    linarith
  have h2 : depth ≤ gardenedTo (withDepth c depth) t := by
    show depth ≤ depth * (1 + c.overturn_ancient_slope * max 0 (t - c.overturn_ancient_t0))
    exact le_mul_of_one_le_right (by linarith) (by
      have := mul_nonneg hslope (le_max_left 0 (t - c.overturn_ancient_t0))
      linarith)
  show c.ice_erosion_rate * (c.timestep / 1e7) + _ ≤ _
  linarith

/-- **C167** neither model always keeps more: to the same depth and with the shipped shield, there is a column of which
gardening leaves less in total, and one of which it leaves more. -/
theorem C167_neither :
    (∃ (ice ej gardened cut : List ℚ) (t : Nat), (∀ x ∈ ice ++ ej, 0 ≤ x) ∧
      removeIceOverturn id (2 / 5) true ice ej t (1 / 10) = .ok gardened ∧
      removeIceOverturn id (2 / 5) false ice ej t (1 / 10) = .ok cut ∧ gardened.sum < cut.sum) ∧
    ∃ (ice ej gardened cut : List ℚ) (t : Nat), (∀ x ∈ ice ++ ej, 0 ≤ x) ∧
      removeIceOverturn id (2 / 5) true ice ej t (1 / 10) = .ok gardened ∧
      removeIceOverturn id (2 / 5) false ice ej t (1 / 10) = .ok cut ∧ cut.sum < gardened.sum :=
  ⟨⟨[1, 1 / 20], [0, 0], [9 / 10, 0], [19 / 20, 0], 1, by decide +kernel, by decide +kernel, by decide +kernel,
    by decide +kernel⟩,
   ⟨[1, 1 / 20], [0, 1 / 5], [1, 1 / 20], [19 / 20, 0], 1, by decide +kernel, by decide +kernel, by decide +kernel,
    by decide +kernel⟩⟩

/-- Three timesteps with ejecta of 0, 0.02 and 0.5 m, gardening to 0.2 m and erosion of 0.1 m: both the condition on
all ejecta and the shield are used, and gardening leaves less in two layers. -/
example : Below (layDown [] [⟨1, 0, 1/5, 0, 0⟩, ⟨1/20, 1/50, 1/5, 0, 0⟩, ⟨3, 1/2, 1/5, 0, 0⟩] : List (ℚ × ℚ))
    (pile (2/5) (1/10) [] [(1, 0), (1/20, 1/50), (3, 1/2)]) := by
  refine layDown_pile (2/5) (1/10) _ [] [] (by decide +kernel) (by simp) .nil ?_
  intro t v hv
  rcases t with _ | _ | _ | t <;> simp at hv
  · subst hv; right; right; norm_num
  · subst hv; right; right; norm_num
  · subst hv; left; norm_num

/-- The shipped configuration of the default mode at each seed: from some depth on gardening leaves no more. -/
example (seed : Int) : ∃ depth₀, ∀ depth, depth₀ ≤ depth → ∀ out out',
    runMain constGen (withDepth (RunCfg.default seed) depth) (shippedData [] sortDesc id id) = .ok out →
    runMain constGen (eroded (withDepth (RunCfg.default seed) depth)) (shippedData [] sortDesc id id) = .ok out' →
    ∃ ice ice', out.ice.get "Haworth" = .ok ice ∧ out'.ice.get "Haworth" = .ok ice' ∧
      List.Forall₂ (· ≤ ·) ice ice' := by
  have hr := default_runnable [] sortDesc id id seed
  have hd := default_data [] sortDesc id id sortDesc_spec seed
  obtain ⟨out, hrun⟩ := C72_returns constGen constGen_lawful _ _ (default_physical seed) hd hr
  exact C167_deep constGen constGen_lawful _ _ (default_physical seed) hd (default_lunar [] sortDesc id id seed)
    hr.nodup rfl (by simp only [RunCfg.default]; norm_num) (by simp only [RunCfg.default]; norm_num) out hrun 0 _ rfl

end MoonPIES
