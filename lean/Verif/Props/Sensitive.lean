import Verif.Lemmas.Sensitive
import Verif.Props.Gentler

/-!
# C152: how sensitive gardening is to small changes
-/

namespace MoonPIES

open Spec

section
set_option linter.unusedSectionVars false
variable {K : Type} [Field K] [LinearOrder K] [IsStrictOrderedRing K]

/-- **C152** Two gardenings of `t + 1` layers, with columns and depths that differ: the ice left differs by no
more than the ice differed before, plus `2 ^ (t + 1) - 1` times everything that differed. -/
theorem C152_lipschitz (ice ice' ej ej' : List K) (t : Nat) (depth depth' eff : K)
    (hi : ∀ x ∈ ice, 0 ≤ x) (hi' : ∀ x ∈ ice', 0 ≤ x) (he : ∀ x ∈ ej, 0 ≤ x) (he' : ∀ x ∈ ej', 0 ≤ x)
    (hli : ice.length = ice'.length) (hle : ej.length = ej'.length) (hti : t < ice.length) (hte : t < ej.length)
    (h0 : 0 ≤ eff) (h1 : eff ≤ 1) :
    ∃ r r', gardenIceColumn (fun x => x) ice ej t depth eff = .ok r ∧
      gardenIceColumn (fun x => x) ice' ej' t depth' eff = .ok r' ∧ r.length = r'.length ∧
      gap r r' ≤ (2 ^ (t + 1) - 1) * (|depth - depth'| + gap ice ice' + gap ej ej') + gap ice ice' := by
  have hn : (2 * (t : Int) + 2).toNat = 2 * (t + 1) := by omega
  have g1 := garden_sink ej depth eff (t + 1) 0 ice (by omega) (by omega)
  have g2 := garden_sink ej' depth' eff (t + 1) 0 ice' (by omega) (by omega)
  rw [work_sink depth eff h0 _ _ (pileOf_mem hi he), sub_zero] at g1
  rw [work_sink depth' eff h0 _ _ (pileOf_mem hi' he'), sub_zero] at g2
  have hp : (pileOf ice ej (t + 1)).length = t + 1 := by
    have := congrArg List.length (pileOf_fst (ice := ice) (ej := ej) (n := t + 1) (by omega) (by omega))
    rw [List.length_map, List.length_reverse, List.length_take] at this
    omega
  have hp' : (pileOf ice' ej' (t + 1)).length = t + 1 := by
    have := congrArg List.length (pileOf_fst (ice := ice') (ej := ej') (n := t + 1) (by omega) (by omega))
    rw [List.length_map, List.length_reverse, List.length_take] at this
    omega
  rw [← hn] at g1 g2
  refine ⟨_, _, g1, g2, ?_, ?_⟩
  · rw [List.length_append, List.length_append, List.length_reverse, List.length_reverse, work_length, work_length,
      hp, hp', List.length_drop, List.length_drop, hli]
  · have hw : (work eff depth (pileOf ice ej (t + 1))).length = (work eff depth' (pileOf ice' ej' (t + 1))).length := by
      rw [work_length, work_length, hp, hp']
    rw [gap_append _ _ _ _ (by rw [List.length_reverse, List.length_reverse, hw]), gap_reverse _ _ hw]
    have key := work_gap eff h0 h1 (pileOf ice ej (t + 1)) (pileOf ice' ej' (t + 1)) depth depth' (by rw [hp, hp'])
    rw [pileOf_fst (by omega) (by omega), pileOf_fst (by omega) (by omega), pileOf_snd (by omega) (by omega),
      pileOf_snd (by omega) (by omega), hp,
      gap_reverse _ _ (by rw [List.length_take, List.length_take, hli]),
      gap_reverse _ _ (by rw [List.length_take, List.length_take, hle])] at key
    have s1 := gap_take_drop (t + 1) ice ice' hli
    have s2 := gap_take_le (t + 1) ej ej' hle
    have s3 := gap_nonneg (ice.drop (t + 1)) (ice'.drop (t + 1))
    have hP : (1 : K) ≤ 2 ^ (t + 1) := one_le_pow₀ (by norm_num)
    have := mul_le_mul_of_nonneg_left (show |depth - depth'| + gap (ice.take (t + 1)) (ice'.take (t + 1)) +
      gap (ej.take (t + 1)) (ej'.take (t + 1)) ≤ |depth - depth'| + gap ice ice' + gap ej ej' by linarith)
      (show (0 : K) ≤ 2 ^ (t + 1) - 1 by linarith)
    linarith

/-- C152 where both columns and the depth differ. -/
example : gardenIceColumn (fun x => x) [3, 6, 12] [0, 0, 0] 2 8 1 = (.ok [1, 2, 4] : Except PyErr (List ℚ)) ∧
    gardenIceColumn (fun x => x) [3, 6, 12 + 1 / 8] [0, 1 / 8, 0] 2 (8 + 1 / 8) 1 =
      (.ok [1, 2, 4] : Except PyErr (List ℚ)) := by decide +kernel

/-- **C152** the same column gardened `δ` metres deeper loses at most `(2 ^ (t + 1) - 1) * δ` metres more ice. -/
theorem C152_deeper (ice ej : List K) (t : Nat) (depth δ eff : K) (hi : ∀ x ∈ ice, 0 ≤ x) (he : ∀ x ∈ ej, 0 ≤ x)
    (hti : t < ice.length) (hte : t < ej.length) (h0 : 0 ≤ eff) (h1 : eff ≤ 1) (hδ : 0 ≤ δ) :
    ∃ r r', gardenIceColumn (fun x => x) ice ej t depth eff = .ok r ∧
      gardenIceColumn (fun x => x) ice ej t (depth + δ) eff = .ok r' ∧
      r.sum - r'.sum ≤ (2 ^ (t + 1) - 1) * δ := by
  obtain ⟨r, r', g1, g2, hl, hg⟩ := C152_lipschitz ice ice ej ej t depth (depth + δ) eff hi hi he he rfl rfl
    hti hte h0 h1
  refine ⟨r, r', g1, g2, ?_⟩
  rw [gap_self, gap_self, add_zero, add_zero, add_zero, sub_add_cancel_left, abs_neg, abs_of_nonneg hδ] at hg
  exact (le_abs_self _).trans ((gap_sum r r' hl).trans hg)

/-- **C152** and that many metres can be lost: with layers that double in thickness upwards, every layer takes
as much of the extra depth again as all the layers above it, since the ice that it loses no longer counts
towards the depth. -/
theorem C152_attained (n : Nat) (δ : K) (hδ : 0 ≤ δ) (hsmall : 2 ^ n * δ ≤ 1) :
    gardenIceColumn (fun x => x) ((List.range (n + 1)).map fun k => 3 * 2 ^ k) (List.replicate (n + 1) 0) n
        (2 ^ (n + 1) + δ) 1 = .ok ((List.range (n + 1)).map fun k => 2 ^ k - 2 ^ (n - k) * δ) ∧
    ((List.range (n + 1)).map fun k => (2 : K) ^ k).sum -
      ((List.range (n + 1)).map fun k => (2 : K) ^ k - 2 ^ (n - k) * δ).sum = (2 ^ (n + 1) - 1) * δ := by
  constructor
  · have hn : (2 * (n : Int) + 2).toNat = 2 * (n + 1) := by omega
    have hi : ∀ x ∈ (List.range (n + 1)).map fun k => (3 : K) * 2 ^ k, 0 ≤ x := by
      intro x hx
      obtain ⟨k, -, rfl⟩ := List.mem_map.1 hx
      positivity
    have he : ∀ x ∈ List.replicate (n + 1) (0 : K), 0 ≤ x := by
      intro x hx
      rw [List.eq_of_mem_replicate hx]
    unfold gardenIceColumn
    rw [hn, garden_sink _ _ _ (n + 1) 0 _ (by simp) (by simp), work_sink _ _ zero_le_one _ _ (pileOf_mem hi he),
      doubling_work (n + 1) (n + 1) _ δ le_rfl (sub_zero _)
        (by have : 0 ≤ 2 ^ (n + 1) * δ := by positivity
            linarith) (by rw [pow_succ]; linarith), List.reverse_reverse,
      List.drop_of_length_le (by simp), List.append_nil]
    congr 1
  · have hsum : ∀ m, ((List.range m).map fun k => (2 : K) ^ k).sum = 2 ^ m - 1 := by
      intro m
      induction m with
      | zero => simp
      | succ m ih => rw [List.range_succ, List.map_append, List.sum_append, ih]; simp [pow_succ]; ring
    have hdec : ∀ m, ((List.range m).map fun k => (2 : K) ^ k - 2 ^ (m - 1 - k) * δ).sum =
        (2 ^ m - 1) - (2 ^ m - 1) * δ := by
      intro m
      have e : ((List.range m).map fun k => (2 : K) ^ (m - 1 - k)).sum = 2 ^ m - 1 := by
        have : (List.range m).map (fun k => (2 : K) ^ (m - 1 - k)) =
            ((List.range m).map fun k => (2 : K) ^ k).reverse := by
          apply List.ext_getElem
          · simp
          · intro i h1 h2
            simp
        rw [this, List.sum_reverse, hsum]
      have : ∀ l : List Nat, (l.map fun k => (2 : K) ^ k - 2 ^ (m - 1 - k) * δ).sum =
          (l.map fun k => (2 : K) ^ k).sum - (l.map fun k => (2 : K) ^ (m - 1 - k)).sum * δ := by
        intro l
        induction l with
        | nil => simp
        | cons a l ih => rw [List.map_cons, List.sum_cons, ih]; simp only [List.map_cons, List.sum_cons]; ring
      rw [this, hsum, e]
    have := hdec (n + 1)
    simp only [Nat.add_sub_cancel] at this
    rw [this, hsum]
    ring

/-- C152 with three layers: a millimetre more depth takes seven millimetres more ice. -/
example : gardenIceColumn (fun x => x) [3, 6, 12] [0, 0, 0] 2 8 1 = (.ok [1, 2, 4] : Except PyErr (List ℚ)) ∧
    gardenIceColumn (fun x => x) [3, 6, 12] [0, 0, 0] 2 (8 + 1 / 1000) 1 =
      (.ok [1 - 4 / 1000, 2 - 2 / 1000, 4 - 1 / 1000] : Except PyErr (List ℚ)) := by decide +kernel

/-- **C152** With layers as thick as the depth of gardening the whole column is lost, however many layers there
are; gardened to a depth short of that by the part `2 ^ -k` it loses ice from the `k` youngest layers only. -/
theorem C152_cliff (m k : Nat) (x : K) (hx : 0 ≤ x) (hn : 0 < m + k) :
    gardenIceColumn (fun x => x) (List.replicate (m + k) x) (List.replicate (m + k) 0) ((m + k : Nat) - 1 : Int) x 1 =
      .ok (List.replicate (m + k) 0) ∧
    gardenIceColumn (fun x => x) (List.replicate (m + k) x) (List.replicate (m + k) 0) ((m + k : Nat) - 1 : Int)
        (x - x / 2 ^ k) 1 =
      .ok (List.replicate m x ++ ((List.range k).map fun j => x * 2 ^ j / 2 ^ k).reverse) := by
  have ht : (2 * (((m + k : Nat) : Int) - 1) + 2).toNat = 2 * (m + k) := by omega
  have hi : ∀ y ∈ List.replicate (m + k) x, 0 ≤ y := by
    intro y hy
    rw [List.eq_of_mem_replicate hy]
    exact hx
  have he : ∀ y ∈ List.replicate (m + k) (0 : K), 0 ≤ y := by
    intro y hy
    rw [List.eq_of_mem_replicate hy]
  have hpile : pileOf (List.replicate (m + k) x) (List.replicate (m + k) (0 : K)) (m + k) =
      List.replicate (m + k) (x, 0) := by
    unfold pileOf
    rw [List.take_of_length_le (by simp), List.take_of_length_le (by simp), List.zip_replicate', List.reverse_replicate]
  have all : ∀ n, work 1 x (List.replicate n (x, 0)) = List.replicate n 0 := by
    intro n
    induction n with
    | zero => rfl
    | succ n ih =>
      rw [List.replicate_succ, work, sub_zero, mul_one, max_eq_left hx, min_self, sub_self, sub_zero, ih,
        List.replicate_succ]
  have some : ∀ i, i ≤ k → work 1 (x - x * 2 ^ (k - i) / 2 ^ k) (List.replicate (m + i) (x, 0)) =
      ((List.range i).map fun j => x * 2 ^ (k - i + j) / 2 ^ k) ++ List.replicate m x := by
    intro i
    induction i with
    | zero =>
      intro _
      have h0 : x - x * 2 ^ (k - 0) / 2 ^ k = 0 := by
        rw [Nat.sub_zero, mul_div_assoc, div_self (by positivity), mul_one, sub_self]
      rw [h0, work_done 1 zero_le_one _ _ le_rfl (by
        intro p hp
        rw [List.eq_of_mem_replicate hp]
        exact ⟨hx, le_rfl⟩)]
      simp
    | succ i ih =>
      intro hik
      have hle : x * 2 ^ (k - (i + 1)) / 2 ^ k ≤ x := by
        rw [div_le_iff₀ (by positivity)]
        exact mul_le_mul_of_nonneg_left (pow_le_pow_right₀ (by norm_num) (by omega)) hx
      have hge : 0 ≤ x * 2 ^ (k - (i + 1)) / 2 ^ k := by positivity
      have hs : k - i = k - (i + 1) + 1 := by omega
      rw [← Nat.add_assoc, List.replicate_succ, work, sub_zero, mul_one, max_eq_left (by linarith),
        min_eq_right (by linarith)]
      have hb : x - x * 2 ^ (k - (i + 1)) / 2 ^ k - (x - (x - x * 2 ^ (k - (i + 1)) / 2 ^ k)) =
          x - x * 2 ^ (k - i) / 2 ^ k := by
        rw [hs, pow_succ]
        ring
      rw [hb, ih (by omega), List.range_succ_eq_map, List.map_cons, List.map_map, List.cons_append]
      congr 1
      · rw [Nat.add_zero]; ring
      · congr 1
        apply List.map_congr_left
        intro j _
        show x * 2 ^ (k - i + j) / 2 ^ k = x * 2 ^ (k - (i + 1) + (j + 1)) / 2 ^ k
        rw [hs]
        congr 3
        omega
  constructor
  · unfold gardenIceColumn
    rw [ht, garden_sink _ _ _ (m + k) 0 _ (by simp) (by simp), work_sink _ _ zero_le_one _ _ (pileOf_mem hi he),
      hpile, sub_zero, all, List.drop_of_length_le (by simp), List.append_nil, List.reverse_replicate]
  · have := some k le_rfl
    rw [Nat.sub_self, pow_zero, mul_one] at this
    unfold gardenIceColumn
    rw [ht, garden_sink _ _ _ (m + k) 0 _ (by simp) (by simp), work_sink _ _ zero_le_one _ _ (pileOf_mem hi he),
      hpile, sub_zero, this, List.drop_of_length_le (by simp), List.append_nil, List.reverse_append,
      List.reverse_replicate]
    simp only [Nat.zero_add]

/-- C152: six layers of 8 cm gardened to 8 cm and to 7 cm. -/
example : gardenIceColumn (fun x => x) [8, 8, 8, 8, 8, 8] [0, 0, 0, 0, 0, 0] 5 8 1 =
      (.ok [0, 0, 0, 0, 0, 0] : Except PyErr (List ℚ)) ∧
    gardenIceColumn (fun x => x) [8, 8, 8, 8, 8, 8] [0, 0, 0, 0, 0, 0] 5 7 1 =
      (.ok [8, 8, 8, 4, 2, 1] : Except PyErr (List ℚ)) := by decide +kernel

/-- **C152** The erosion of Cannon et al. does not amplify: two columns under the same ejecta, eroded to two
depths, differ afterwards by no more than the ice and the depths differed before. -/
theorem C152_cannon (ice ice' ej : List K) (t : Nat) (ed ed' shield : K) (hi : ∀ x ∈ ice, 0 ≤ x)
    (hi' : ∀ x ∈ ice', 0 ≤ x) (hli : ice.length = ice'.length) (hti : t < ice.length) (hte : t < ej.length)
    (h0 : 0 ≤ ed) (h0' : 0 ≤ ed') (r r' : List K)
    (h : erodeIceCannon (fun x => x) ice ej t ed shield = .ok r)
    (h' : erodeIceCannon (fun x => x) ice' ej t ed' shield = .ok r') :
    gap r r' ≤ gap ice ice' + |ed - ed'| := by
  by_cases hs : ej[t] ≤ shield
  · have hb : erosionBase ej t shield < t := (erosionBase_lt_iff ej t shield).2 (fun f hf => by
      rw [List.getElem?_eq_getElem hte] at hf; injection hf with hf; rw [← hf]; exact hs)
    have e1 := erodeLoop_eat hb (t + 1) ed ice r h0 hi (by omega) h
    have e2 := erodeLoop_eat hb (t + 1) ed' ice' r' h0' hi' (by omega) h'
    have hl : (ice.take (t + 1)).length = (ice'.take (t + 1)).length := by
      rw [List.length_take, List.length_take, hli]
    have hm : ∀ {l : List K}, (∀ x ∈ l, 0 ≤ x) → ∀ x ∈ (l.take (t + 1)).reverse, 0 ≤ x :=
      fun hl x hx => hl x (List.mem_of_mem_take (List.mem_reverse.1 hx))
    have he : (eat ed (ice.take (t + 1)).reverse).length = (eat ed' (ice'.take (t + 1)).reverse).length := by
      rw [eat_length, eat_length, List.length_reverse, List.length_reverse, hl]
    have key := eat_gap _ _ ed ed' (by rw [List.length_reverse, List.length_reverse, hl]) (hm hi) (hm hi') h0 h0'
    rw [gap_reverse _ _ hl] at key
    rw [e1, e2, gap_append _ _ _ _ (by rw [List.length_reverse, List.length_reverse, he]), gap_reverse _ _ he,
      gap_take_drop (t + 1) ice ice' hli]
    linarith
  · have hg : ej[t]? = some ej[t] := List.getElem?_eq_getElem hte
    rw [C08_surface_shield_partial _ ice ej t ed shield _ hg (not_le.1 hs)] at h
    rw [C08_surface_shield_partial _ ice' ej t ed' shield _ hg (not_le.1 hs)] at h'
    injection h with h
    injection h' with h'
    rw [← h, ← h']
    linarith [abs_nonneg (ed - ed')]

/-- C152 on the column above: a millimetre more depth takes a millimetre more ice. -/
example : erodeIceCannon (fun x => x) [3, 6, 12] [0, 0, 0] 2 13 (4 / 10) = (.ok [3, 5, 0] : Except PyErr (List ℚ)) ∧
    erodeIceCannon (fun x => x) [3, 6, 12] [0, 0, 0] 2 (13 + 1 / 1000) (4 / 10) =
      (.ok [3, 5 - 1 / 1000, 0] : Except PyErr (List ℚ)) := by decide +kernel

end

variable {σ : Type}

/-- **C152** so in a whole run with the erosion of Cannon et al. and no ballistic sedimentation, lowering the rate
of erosion changes the ice of a cold trap, layer by layer and added up, by no more than the change of depth times
the number of timesteps. -/
theorem C152_run (g : Gen σ) (hg : LawfulGen g) (c : RunCfg) (d : RunData) (hc : PhysicalCfg c)
    (hd : PhysicalData c d) (hl : Lunar c d) (hnd : c.coldtrap_names.Nodup)
    (hcost : c.impact_gardening_costello = false) (hbs : c.ballistic_sed = false) (hts : 0 ≤ c.timestep)
    (rate : ℝ) (h0 : 0 ≤ rate) (hle : rate ≤ c.ice_erosion_rate) (out out' : CsvOut)
    (hrun : runMain g c d = .ok out) (hrun' : runMain g { c with ice_erosion_rate := rate } d = .ok out') :
    ∃ time, getTimeArray c.timestart c.timeend c.timestep = .ok time ∧
      ∀ name ∈ c.coldtrap_names, ∃ ice ice', out.ice.get name = .ok ice ∧ out'.ice.get name = .ok ice' ∧
        List.Forall₂ (· ≤ ·) ice ice' ∧
        gap ice ice' ≤ time.length * ((c.ice_erosion_rate - rate) * (c.timestep / 1e7)) := by
  have hgen : Gentler c { c with ice_erosion_rate := rate } :=
    ⟨rfl, id, le_rfl, Or.inl ⟨rfl, rfl⟩, hle, id, le_rfl, le_rfl, le_rfl, le_rfl, le_rfl, le_rfl, le_rfl, le_rfl⟩
  have hc' := gentler_physical hgen hc
  have hd' : PhysicalData { c with ice_erosion_rate := rate } d :=
    ⟨hd.solar, hd.volc, hd.hops, hd.basins, hd.melt, hd.lost, hd.sorted⟩
  have hdiv : 0 ≤ c.timestep / 1e7 := div_nonneg hts (by norm_num)
  obtain ⟨df, s, time, del, s', a1, a2, a3, a4, a5⟩ := C110_run g hg c d hc hd hnd hcost hbs
    (mul_nonneg (h0.trans hle) hdiv) out hrun
  obtain ⟨df', z, time', del', z', b1, b2, b3, b4, b5⟩ := C110_run g hg { c with ice_erosion_rate := rate } d hc' hd'
    hnd hcost hbs (mul_nonneg h0 hdiv) out' hrun'
  have b1' : craterBasinList g c d (g.init c.seed) = .ok (df', z) := b1
  rw [a1] at b1'
  injection b1' with b1'
  injection b1' with q1 q2
  have b2' : getTimeArray c.timestart c.timeend c.timestep = .ok time' := b2
  rw [a2] at b2'
  injection b2' with q3
  have b3' : iceCols g c d df' time' z = .ok (del', z') :=
    (iceCols_rate g c rate d df' time' z).symm.trans b3
  rw [← q1, ← q2, ← q3, a3] at b3'
  injection b3' with b3'
  injection b3' with q4 q5
  refine ⟨time, a2, ?_⟩
  intro name hname
  obtain ⟨j, hj⟩ := List.mem_iff_getElem?.1 hname
  obtain ⟨ys, ice, ej, y1, y2, y3, y4, y5, y6, -, -⟩ := a5 j name hj
  obtain ⟨zs, ice', ej', z1, z2, z3, z4, z5, z6, -, -⟩ := b5 j name hj
  obtain ⟨i1, i2, e, k1, k2, k3, k4, k5, -⟩ := C115_gentler g hg c _ d hc hd hl hd' hnd hgen out out' hrun hrun'
    name hname
  rw [y3] at k1
  injection k1 with k1
  rw [z3] at k2
  injection k2 with k2
  rw [y4] at k3
  injection k3 with k3
  rw [z4] at k4
  injection k4 with k4
  have hej : ej' = ej := k4.trans k3.symm
  have hys : zs = ys := by
    apply List.ext_getElem?
    intro i
    by_cases hi : i < del.length
    · have g1 := (y2 i _ (List.getElem?_eq_getElem hi)).1
      have g2 := (z2 i _ (by rw [← q4]; exact List.getElem?_eq_getElem hi)).1
      rw [g1, g2]
    · rw [List.getElem?_eq_none (by rw [z1, ← q3]; omega), List.getElem?_eq_none (by rw [y1]; omega)]
  refine ⟨ice, ice', y3, z3, by rw [k1, k2]; exact k5, ?_⟩
  have hpos : ∀ p ∈ ys.zip ej, 0 ≤ p.1 := by
    intro p hp
    have hm := (List.of_mem_zip (a := p.1) (b := p.2) hp).1
    obtain ⟨i, hi⟩ := List.mem_iff_getElem?.1 hm
    have hil : i < time.length := by rw [← y1]; exact (List.getElem?_eq_some_iff.1 hi).1
    have htne : time ≠ [] := by
      intro h
      rw [h] at hil
      exact absurd hil (Nat.not_lt_zero _)
    obtain ⟨rows, w, w1, -, w3⟩ := iceCols_ok g hg hc hd df (craterBasinList_rad g hd _ _ _ a1) time htne s
    rw [a3] at w1
    injection w1 with w1
    injection w1 with w1 w2
    have hil' : i < del.length := by rw [a4]; exact hil
    have g1 := (y2 i _ (List.getElem?_eq_getElem hil')).1
    rw [hi] at g1
    exact (w3 _ (by rw [← w1]; exact List.getElem_mem hil')).2 _ (List.mem_of_getElem? g1.symm)
  obtain ⟨p1, p2⟩ := pile_gap 0.4 (c.ice_erosion_rate * (c.timestep / 1e7)) (rate * (c.timestep / 1e7))
    (mul_nonneg (h0.trans hle) hdiv) (mul_nonneg h0 hdiv) (ys.zip ej) [] [] rfl (by simp) (by simp) hpos
  have z6' : ice' = (pile 0.4 (rate * (c.timestep / 1e7)) [] (ys.zip ej)).reverse := by rw [z6, hys, hej]
  rw [y6, z6', gap_reverse _ _ p2]
  refine p1.trans (le_of_eq ?_)
  rw [← sub_mul, abs_of_nonneg (mul_nonneg (by linarith) hdiv), List.length_zip, y1, y5, min_self,
    show gap ([] : List ℝ) [] = 0 from rfl, zero_add]

theorem cannon_lunar (nk : List (ℝ × ℝ)) (sortAges : CraterTable → CraterTable)
    (sortNk : List (ℝ × ℝ) → List (ℝ × ℝ)) (setOrder : List (List Char) → List (List Char)) (seed : Int) :
    Lunar (RunCfg.cannon seed) (shippedData nk sortAges sortNk setOrder) := by
  have h := default_lunar nk sortAges sortNk setOrder seed
  exact ⟨h.moon, h.angle90, h.s2c, h.c2pr, h.diam⟩

/-- **C152** with the shipped files and the mode that reproduces Cannon et al. (2020), which takes 0.1 m of ice
every 10 Myr: with any lower rate the run returns too, and the layers of a cold
trap change by at most 425 times the difference, one for each timestep. -/
theorem C152_shipped (nk : List (ℝ × ℝ)) (sortAges : CraterTable → CraterTable)
    (sortNk : List (ℝ × ℝ) → List (ℝ × ℝ)) (setOrder : List (List Char) → List (List Char))
    (g : Gen σ) (hg : LawfulGen g) (hs : Spec.SortDesc sortAges) (seed : Int) (rate : ℝ) (h0 : 0 ≤ rate)
    (h1 : rate ≤ 0.1) :
    ∃ out out', runMain g (RunCfg.cannon seed) (shippedData nk sortAges sortNk setOrder) = .ok out ∧
      runMain g { RunCfg.cannon seed with ice_erosion_rate := rate } (shippedData nk sortAges sortNk setOrder) =
        .ok out' ∧
      ∀ name ∈ (RunCfg.cannon seed).coldtrap_names, ∃ ice ice', out.ice.get name = .ok ice ∧
        out'.ice.get name = .ok ice' ∧ List.Forall₂ (· ≤ ·) ice ice' ∧
        gap ice ice' ≤ 425 * (0.1 - rate) := by
  have hr : (RunCfg.cannon seed).ice_erosion_rate = 0.1 := by
    simp only [RunCfg.cannon, RunCfg.default]
  have hts : (RunCfg.cannon seed).timestep = 1e7 := by
    simp only [RunCfg.cannon, RunCfg.default]
    norm_num
  have hc := cannon_physical seed
  have hd := cannon_data nk sortAges sortNk setOrder hs seed
  have hrun := cannon_runnable nk sortAges sortNk setOrder seed
  have hgen : Gentler (RunCfg.cannon seed) { RunCfg.cannon seed with ice_erosion_rate := rate } :=
    ⟨rfl, id, le_rfl, Or.inl ⟨rfl, rfl⟩, by rw [hr]; exact h1, id, le_rfl, le_rfl, le_rfl, le_rfl, le_rfl, le_rfl,
      le_rfl, le_rfl⟩
  have hd' : PhysicalData { RunCfg.cannon seed with ice_erosion_rate := rate }
      (shippedData nk sortAges sortNk setOrder) :=
    ⟨hd.solar, hd.volc, hd.hops, hd.basins, hd.melt, hd.lost, hd.sorted⟩
  obtain ⟨out, o1⟩ := C72_returns g hg _ _ hc hd hrun
  obtain ⟨out', o2⟩ := C72_returns g hg _ _ (gentler_physical hgen hc) hd' (gentler_runnable hgen hrun)
  obtain ⟨time, t1, t2⟩ := C152_run g hg _ _ hc hd (cannon_lunar nk sortAges sortNk setOrder seed) hrun.nodup rfl rfl
    (by rw [hts]; norm_num) rate h0 (by rw [hr]; exact h1) out out' o1 o2
  have hlen : time.length = 425 := by
    have h2 := C19_uniform_partial (K := ℝ) 4250000000 10000000 425 (by norm_num) (by norm_num) (by norm_num)
    have e : getTimeArray (RunCfg.cannon seed).timestart (RunCfg.cannon seed).timeend (RunCfg.cannon seed).timestep =
        getTimeArray (4250000000 : ℝ) 0 10000000 := by
      simp only [RunCfg.cannon, RunCfg.default]
      norm_num
    rw [e, h2] at t1
    injection t1 with t1
    rw [← t1]
    simp [uniformGrid]
  refine ⟨out, out', o1, o2, ?_⟩
  intro name hn
  obtain ⟨ice, ice', i1, i2, i3, i4⟩ := t2 name hn
  refine ⟨ice, ice', i1, i2, i3, i4.trans (le_of_eq ?_)⟩
  rw [hr, hts, div_self (by norm_num), mul_one, hlen]
  norm_num

end MoonPIES
