import Verif.Props.Sensitive

/-!
# C154: how much of additional ice is kept
-/

namespace MoonPIES

open Spec

section
set_option linter.unusedSectionVars false
variable {K : Type} [Field K] [LinearOrder K] [IsStrictOrderedRing K]

/-- **C154** In a column under the erosion of Cannon et al. alone, what more is left is never more than what more
was delivered. -/
theorem C154_column (shield ed : K) (hed : 0 ≤ ed) (ys ys' ej r r' : List K) (ovs : List K) (ho : ∀ o ∈ ovs, o = ed)
    (h0 : ∀ y ∈ ys, 0 ≤ y) (hle : List.Forall₂ (· ≤ ·) ys ys') (hl : ys.length = ovs.length)
    (hej : ej.length = ys.length)
    (h : overturnOnly (fun x => x) shield false ej 0 ovs ys = .ok r)
    (h' : overturnOnly (fun x => x) shield false ej 0 ovs ys' = .ok r') :
    r'.sum - r.sum ≤ ys'.sum - ys.sum := by
  have hll : ys.length = ys'.length := hle.length_eq
  have h0' : ∀ y ∈ ys', 0 ≤ y := by
    intro y hy
    obtain ⟨i, hi⟩ := List.mem_iff_getElem?.1 hy
    have hil : i < ys.length := by rw [hll]; exact (List.getElem?_eq_some_iff.1 hi).1
    exact (h0 _ (List.getElem_mem hil)).trans ((forall₂_iff_getElem?.1 hle).2 i _ y (List.getElem?_eq_getElem hil) hi)
  have e1 := C110_column shield ed hed ej ovs 0 ys r ho h0 (by omega) hej h
  have e2 := C110_column shield ed hed ej ovs 0 ys' r' ho h0' (by omega) (by omega) h'
  simp only [List.take_zero, List.drop_zero, List.reverse_nil] at e1 e2
  obtain ⟨k1, k2⟩ := pile_supply shield ed hed ys ys' ej [] [] hll rfl (by simp) (by simp) h0 h0'
  have k3 := gap_sum _ _ k2
  rw [gap_of_le _ _ hle] at k1
  rw [e1, e2, List.sum_reverse, List.sum_reverse]
  have k4 := neg_abs_le ((pile shield ed [] (ys.zip ej)).sum - (pile shield ed [] (ys'.zip ej)).sum)
  rw [show gap ([] : List K) [] = 0 from rfl] at k1
  linarith

/-- C154 where one of two metres more is kept: the lower layer is eaten, the upper one is not. -/
example : overturnOnly (fun x => x) (4 / 10) false [0, 0, 1] 0 [2, 2, 2] ([1, 1, 5] : List ℚ) = .ok [0, 0, 5] ∧
    overturnOnly (fun x => x) (4 / 10) false [0, 0, 1] 0 [2, 2, 2] ([2, 1, 6] : List ℚ) = .ok [0, 0, 6] := by
  decide +kernel

/-- **C154** The gardening of Costello et al. can leave any multiple of the additional ice: in a column of `n + 1`
layers the youngest of which is `δ` metres thicker, `2 ^ n * δ` metres more are left. -/
theorem C154_costello_refuted (n : Nat) (δ : K) (h0 : 0 ≤ δ) (h1 : 2 ^ n * δ ≤ 1) :
    gardenIceColumn (fun x => x) (((List.range n).map fun k => 3 * 2 ^ k) ++ [3 * 2 ^ n + δ])
      (List.replicate (n + 1) 0) n (2 ^ (n + 1)) 1 =
        .ok (((List.range n).map fun k => 2 ^ k + 2 ^ (n - 1 - k) * δ) ++ [2 ^ n + δ]) ∧
    (((List.range n).map fun k => (2 : K) ^ k + 2 ^ (n - 1 - k) * δ) ++ [2 ^ n + δ]).sum -
      (((List.range n).map fun k => (2 : K) ^ k) ++ [2 ^ n]).sum = 2 ^ n * δ := by
  have hP : (1 : K) ≤ 2 ^ n := one_le_pow₀ (by norm_num)
  have hδ1 : δ ≤ 1 := by nlinarith
  constructor
  · have hn : (2 * (n : Int) + 2).toNat = 2 * (n + 1) := by omega
    have hi : ∀ x ∈ ((List.range n).map fun k => (3 : K) * 2 ^ k) ++ [3 * 2 ^ n + δ], 0 ≤ x := by
      intro x hx
      rcases List.mem_append.1 hx with hx | hx
      · obtain ⟨k, -, rfl⟩ := List.mem_map.1 hx
        positivity
      · rw [List.mem_singleton.1 hx]; positivity
    have he : ∀ x ∈ List.replicate (n + 1) (0 : K), 0 ≤ x := by
      intro x hx
      rw [List.eq_of_mem_replicate hx]
    have hp : pileOf (((List.range n).map fun k => (3 : K) * 2 ^ k) ++ [3 * 2 ^ n + δ]) (List.replicate (n + 1) 0)
        (n + 1) = (3 * 2 ^ n + δ, 0) ::
          pileOf ((List.range n).map fun k => (3 : K) * 2 ^ k) (List.replicate n 0) n := by
      rw [pileOf_succ (x := 3 * 2 ^ n + δ) (e := 0) (by rw [List.getElem?_append_right (by simp)]; simp)
        (by rw [List.getElem?_replicate, if_pos (by omega)])]
      congr 1
      unfold pileOf
      rw [List.take_append_of_le_length (by simp), List.take_replicate, List.take_replicate,
        Nat.min_eq_left (Nat.le_succ n), Nat.min_self]
    unfold gardenIceColumn
    rw [hn, garden_sink _ _ _ (n + 1) 0 _ (by simp) (by simp), work_sink _ _ zero_le_one _ _ (pileOf_mem hi he), hp,
      work]
    have hm : min ((3 * 2 ^ n + δ) * 1) (max ((2 : K) ^ (n + 1) - 0 - 0) 0) = 2 ^ n * 2 := by
      rw [sub_zero, sub_zero, pow_succ, max_eq_left (by linarith), min_eq_right (by linarith)]
    rw [hm, doubling_work n n _ (-δ) le_rfl (by rw [pow_succ]; ring) (by linarith)
      (by have : 0 ≤ 2 ^ n * δ := by positivity
          linarith), List.reverse_cons, List.reverse_reverse, List.drop_of_length_le (by simp), List.append_nil]
    congr 2
    · apply List.map_congr_left
      intro k _
      ring
    · congr 1
      ring
  · have hsum : ∀ m, ((List.range m).map fun k => (2 : K) ^ k).sum = 2 ^ m - 1 := by
      intro m
      induction m with
      | zero => simp
      | succ m ih => rw [List.range_succ, List.map_append, List.sum_append, ih]; simp [pow_succ]; ring
    have e : ((List.range n).map fun k => (2 : K) ^ (n - 1 - k)).sum = 2 ^ n - 1 := by
      have : (List.range n).map (fun k => (2 : K) ^ (n - 1 - k)) =
          ((List.range n).map fun k => (2 : K) ^ k).reverse := by
        apply List.ext_getElem
        · simp
        · intro i h1 h2
          simp
      rw [this, List.sum_reverse, hsum]
    have split : ∀ l : List Nat, (l.map fun k => (2 : K) ^ k + 2 ^ (n - 1 - k) * δ).sum =
        (l.map fun k => (2 : K) ^ k).sum + (l.map fun k => (2 : K) ^ (n - 1 - k)).sum * δ := by
      intro l
      induction l with
      | nil => simp
      | cons a l ih => rw [List.map_cons, List.sum_cons, ih]; simp only [List.map_cons, List.sum_cons]; ring
    rw [List.sum_append, List.sum_append, split, e, hsum, List.sum_singleton, List.sum_singleton]
    ring

/-- C154 with four layers: a millimetre more leaves eight millimetres more. -/
example : gardenIceColumn (fun x => x) [3, 6, 12, 24] [0, 0, 0, 0] 3 16 1 =
      (.ok [1, 2, 4, 8] : Except PyErr (List ℚ)) ∧
    gardenIceColumn (fun x => x) [3, 6, 12, 24 + 1 / 1000] [0, 0, 0, 0] 3 16 1 =
      (.ok [1 + 4 / 1000, 2 + 2 / 1000, 4 + 1 / 1000, 8 + 1 / 1000] : Except PyErr (List ℚ)) := by decide +kernel

end

variable {σ : Type}

/-- **C154** Whole runs with the erosion of Cannon et al. and no ballistic sedimentation: options that only add ice,
at the same rate of erosion, leave more ice in a cold trap, but not more than they deliver more to it. -/
theorem C154_run_partial (g : Gen σ) (hg : LawfulGen g) (c c' : RunCfg) (d : RunData) (hc : PhysicalCfg c)
    (hd : PhysicalData c d) (hl : Lunar c d) (hd' : PhysicalData c' d) (hnd : c.coldtrap_names.Nodup)
    (hcost : c.impact_gardening_costello = false) (hbs : c.ballistic_sed = false)
    (hed : 0 ≤ c.ice_erosion_rate * (c.timestep / 1e7)) (hgen : Gentler c c')
    (hrate : c'.ice_erosion_rate = c.ice_erosion_rate) (out out' : CsvOut)
    (hrun : runMain g c d = .ok out) (hrun' : runMain g c' d = .ok out') :
    ∃ df s time delivered delivered' s₁ s₂, craterBasinList g c d (g.init c.seed) = .ok (df, s) ∧
      getTimeArray c.timestart c.timeend c.timestep = .ok time ∧
      iceCols g c d df time s = .ok (delivered, s₁) ∧ iceCols g c' d df time s = .ok (delivered', s₂) ∧
      ∀ (j : Nat) name, c.coldtrap_names[j]? = some name → ∃ ys ys' ice ice' : List ℝ,
        (∀ (i : Nat) row, delivered[i]? = some row → ys[i]? = row[j]? ∧ row[j]?.isSome = true) ∧
        (∀ (i : Nat) row, delivered'[i]? = some row → ys'[i]? = row[j]? ∧ row[j]?.isSome = true) ∧
        ys.length = time.length ∧ ys'.length = time.length ∧
        out.ice.get name = .ok ice ∧ out'.ice.get name = .ok ice' ∧
        0 ≤ ice'.sum - ice.sum ∧ ice'.sum - ice.sum ≤ ys'.sum - ys.sum := by
  have hc' := gentler_physical hgen hc
  have hn : c'.coldtrap_names = c.coldtrap_names := by rw [hgen.same]; rfl
  have hts : c'.timestep = c.timestep := by rw [hgen.same]; rfl
  have hcost' : c'.impact_gardening_costello = false := by rw [hgen.same]; exact hcost
  have hbs' : c'.ballistic_sed = false := by
    cases h : c'.ballistic_sed with
    | false => rfl
    | true => rw [hgen.sed h] at hbs; cases hbs
  obtain ⟨df, s, time, del, s', a1, a2, a3, a4, a5⟩ := C110_run g hg c d hc hd hnd hcost hbs hed out hrun
  obtain ⟨df', z, time', del', z', b1, b2, b3, b4, b5⟩ := C110_run g hg c' d hc' hd' (hn ▸ hnd) hcost' hbs'
    (by rw [hrate, hts]; exact hed) out' hrun'
  have t1 : getTimeArray c'.timestart c'.timeend c'.timestep =
      getTimeArray c.timestart c.timeend c.timestep := by rw [hgen.same]; rfl
  rw [t1, a2] at b2
  injection b2 with q3
  have t2 : craterBasinList g c' d (g.init c'.seed) = craterBasinList g c d (g.init c.seed) := by
    rw [hgen.same]; rfl
  rw [t2, a1] at b1
  injection b1 with b1
  injection b1 with q1 q2
  subst q1
  subst q2
  subst q3
  refine ⟨df, s, time, del, del', s', z', a1, a2, a3, b3, ?_⟩
  intro j name hj
  obtain ⟨ys, ice, ej, y1, y2, y3, y4, y5, y6, -, -⟩ := a5 j name hj
  obtain ⟨zs, ice', ej', z1, z2, z3, z4, z5, z6, -, -⟩ := b5 j name (by rw [hn]; exact hj)
  obtain ⟨i1, i2, e, k1, k2, k3, k4, -, k5⟩ := C115_gentler g hg c c' d hc hd hl hd' hnd hgen out out' hrun hrun'
    name (List.mem_of_getElem? hj)
  rw [y3] at k1
  injection k1 with k1
  rw [z3] at k2
  injection k2 with k2
  rw [y4] at k3
  injection k3 with k3
  rw [z4] at k4
  injection k4 with k4
  have hej : ej' = ej := k4.trans k3.symm
  refine ⟨ys, zs, ice, ice', y2, z2, y1, z1, y3, z3, by rw [k1, k2]; linarith, ?_⟩
  -- the supply
  have hsup : (∀ y ∈ ys, 0 ≤ y) ∧ (∀ y ∈ zs, 0 ≤ y) ∧ List.Forall₂ (· ≤ ·) ys zs := by
    by_cases htne : time = []
    · have e1 : ys = [] := List.eq_nil_of_length_eq_zero (by rw [y1, htne]; rfl)
      have e2 : zs = [] := List.eq_nil_of_length_eq_zero (by rw [z1, htne]; rfl)
      rw [e1, e2]
      exact ⟨by simp, by simp, .nil⟩
    · have hrad := craterBasinList_rad g hd _ _ _ a1
      have hle := iceCols_le g hg hgen hc hd hd' df hrad time htne s _ _ _ _ a3 b3
      obtain ⟨rows, w, w1, -, w3⟩ := iceCols_ok g hg hc hd df hrad time htne s
      rw [a3] at w1
      injection w1 with w1
      injection w1 with w1 w2
      have nn : ∀ y ∈ ys, 0 ≤ y := by
        intro y hy
        obtain ⟨i, hi⟩ := List.mem_iff_getElem?.1 hy
        have hil : i < del.length := by rw [a4, ← y1]; exact (List.getElem?_eq_some_iff.1 hi).1
        have g1 := (y2 i _ (List.getElem?_eq_getElem hil)).1
        rw [hi] at g1
        exact (w3 _ (by rw [← w1]; exact List.getElem_mem hil)).2 _ (List.mem_of_getElem? g1.symm)
      have hf : List.Forall₂ (· ≤ ·) ys zs := by
        rw [forall₂_iff_getElem?]
        refine ⟨by rw [y1, z1], ?_⟩
        intro i a b ha hb
        have hil : i < del.length := by rw [a4, ← y1]; exact (List.getElem?_eq_some_iff.1 ha).1
        have hil' : i < del'.length := by rw [b4, ← z1]; exact (List.getElem?_eq_some_iff.1 hb).1
        have g1 := (y2 i _ (List.getElem?_eq_getElem hil)).1
        have g2 := (z2 i _ (List.getElem?_eq_getElem hil')).1
        rw [ha] at g1
        rw [hb] at g2
        have hrow := (forall₂_iff_getElem?.1 hle).2 i _ _ (List.getElem?_eq_getElem hil) (List.getElem?_eq_getElem hil')
        exact (forall₂_iff_getElem?.1 hrow).2 j a b g1.symm g2.symm
      refine ⟨nn, ?_, hf⟩
      intro y hy
      obtain ⟨i, hi⟩ := List.mem_iff_getElem?.1 hy
      have hil : i < ys.length := by rw [y1, ← z1]; exact (List.getElem?_eq_some_iff.1 hi).1
      exact (nn _ (List.getElem_mem hil)).trans ((forall₂_iff_getElem?.1 hf).2 i _ y (List.getElem?_eq_getElem hil) hi)
  obtain ⟨p1, p2, p3⟩ := hsup
  obtain ⟨m1, m2⟩ := pile_supply 0.4 (c.ice_erosion_rate * (c.timestep / 1e7)) hed ys zs ej [] [] (by rw [y1, z1]) rfl
    (by simp) (by simp) p1 p2
  have m3 := gap_sum _ _ m2
  rw [gap_of_le _ _ p3, show gap ([] : List ℝ) [] = 0 from rfl] at m1
  rw [hrate, hts, hej] at z6
  rw [y6, z6, List.sum_reverse, List.sum_reverse]
  have m4 := neg_abs_le ((pile 0.4 (c.ice_erosion_rate * (c.timestep / 1e7)) [] (ys.zip ej)).sum -
    (pile 0.4 (c.ice_erosion_rate * (c.timestep / 1e7)) [] (zs.zip ej)).sum)
  linarith

/-- C154 for the shipped files and the mode of Cannon et al. (2020), with more micrometeorites. -/
example (g : Gen σ) (hg : LawfulGen g) (seed : Int) (m : ℝ) (hm : (RunCfg.cannon seed).mm_mass_rate ≤ m) :
    ∃ out out', runMain g (RunCfg.cannon seed) (shippedData [] sortDesc id id) = .ok out ∧
      runMain g { RunCfg.cannon seed with mm_mass_rate := m } (shippedData [] sortDesc id id) = .ok out' ∧
      ∃ ice ice' ys ys' : List ℝ, out.ice.get "Faustini" = .ok ice ∧ out'.ice.get "Faustini" = .ok ice' ∧
        0 ≤ ice'.sum - ice.sum ∧ ice'.sum - ice.sum ≤ ys'.sum - ys.sum := by
  have hgen : Gentler (RunCfg.cannon seed) { RunCfg.cannon seed with mm_mass_rate := m } :=
    ⟨rfl, id, le_rfl, Or.inl ⟨rfl, rfl⟩, le_rfl, id, le_rfl, le_rfl, le_rfl, hm, le_rfl, le_rfl, le_rfl, le_rfl⟩
  have hc := cannon_physical seed
  have hd := cannon_data [] sortDesc id id sortDesc_spec seed
  have hr := cannon_runnable [] sortDesc id id seed
  have hd' : PhysicalData { RunCfg.cannon seed with mm_mass_rate := m } (shippedData [] sortDesc id id) :=
    ⟨hd.solar, hd.volc, hd.hops, hd.basins, hd.melt, hd.lost, hd.sorted⟩
  obtain ⟨out, o1⟩ := C72_returns g hg _ _ hc hd hr
  obtain ⟨out', o2⟩ := C72_returns g hg _ _ (gentler_physical hgen hc) hd' (gentler_runnable hgen hr)
  obtain ⟨df, s, time, x, x', s1, s2, -, -, -, -, h⟩ := C154_run_partial g hg _ _ _ hc hd
    (cannon_lunar [] sortDesc id id seed) hd' hr.nodup rfl rfl (by rw [cannon_erosion]; norm_num) hgen rfl out out' o1 o2
  have hmem : "Faustini" ∈ (RunCfg.cannon seed).coldtrap_names := by
    show "Faustini" ∈ (RunCfg.default 1).coldtrap_names
    decide +kernel
  obtain ⟨j, hj⟩ := List.mem_iff_getElem?.1 hmem
  obtain ⟨ys, ys', ice, ice', -, -, -, -, i1, i2, i3, i4⟩ := h j _ hj
  exact ⟨out, out', o1, o2, ice, ice', ys, ys', i1, i2, i3, i4⟩

end MoonPIES
