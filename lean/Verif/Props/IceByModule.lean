import Verif.Lemmas.IceByModule

/-!
# C89: the ice by module
-/

namespace MoonPIES

open Spec

variable {σ : Type}

/-- **C89** the figure exists: with inputs on which runs succeed, and at least one seed, the ice by
module is computed without an exception. -/
theorem C89_returns (g : Gen σ) (hgen : LawfulGen g) (c : RunCfg) (d : RunData)
    (hc : PhysicalCfg c) (hd : PhysicalData c d) (hr : Runnable c d) (draw : Nat → Int)
    (seeds : List Int) (hs : seeds ≠ []) : ∃ t, astCometSeeds g c d draw seeds = .ok t := by
  obtain ⟨time, h1, hne, -⟩ := timeArray_last hc hr
  obtain ⟨⟨adf, cdf⟩, h2⟩ := seedLoop_ok g c d draw time (fun a n => by
    obtain ⟨_, _, t, -, -, h, -⟩ := freshModules_ok g hgen (physical_reseed hc a n)
      (data_reseed hd a n) (runnable_reseed hr a n) time hne
    obtain ⟨_, _, u, -, -, h', -⟩ := freshModules_ok g hgen
      (physical_comet (physical_reseed hc a n)) (data_comet (data_reseed hd a n))
      (runnable_comet (runnable_reseed hr a n)) time hne
    exact ⟨⟨t, h⟩, u, h'⟩) seeds 0 (fun _ => time.map (fun _ => 0), fun _ => time.map (fun _ => 0))
  obtain ⟨ts, h3, h4⟩ := seedLoop_inv g c d draw time seeds 0 _ _ h2
  simp only [Prod.mk.injEq] at h4
  have h5 : ∀ x ∈ ts, x.1 .time = time ∧ x.2 .time = time := by
    obtain ⟨rs, -, h6⟩ := forall₂_split (Q := fun (x : ModuleTable × ModuleTable) (_ : Unit) =>
      x.1 .time = time ∧ x.2 .time = time) (P := fun _ _ => True) h3 (by
        rintro n ⟨t, u⟩ ⟨q1, q2⟩
        obtain ⟨_, _, _, -, -, -, q3, q4, -⟩ := seed_modules g hgen
          (c := { c with seed := n }) { hc with } { hd with } { hr with } h1 hne q1 q2
        exact ⟨(), trivial, q3, q4⟩)
    intro x hx
    obtain ⟨_, h⟩ := forall₂_right h6 x hx
    exact h
  have h6 : adf .time = cdf .time := by
    rw [h4.1, h4.2]
    apply List.ext_getElem?
    intro i
    obtain ⟨a1, a2⟩ := foldl_add_getD (ts.map (·.1)) time.length .time i
      (fun _ => time.map (fun _ => (0 : ℝ))) (List.length_map _) (by
        intro x hx; obtain ⟨y, hy, rfl⟩ := List.mem_map.1 hx; rw [(h5 y hy).1])
    obtain ⟨b1, b2⟩ := foldl_add_getD (ts.map (·.2)) time.length .time i
      (fun _ => time.map (fun _ => (0 : ℝ))) (List.length_map _) (by
        intro x hx; obtain ⟨y, hy, rfl⟩ := List.mem_map.1 hx; rw [(h5 y hy).2])
    by_cases hi : i < time.length
    · rw [getElem?_of_getD (by rw [a1]; exact hi) a2, getElem?_of_getD (by rw [b1]; exact hi) b2]
      congr 2
      rw [List.map_map, List.map_map]
      congr 1
      apply List.map_congr_left
      intro x hx
      simp only [Function.comp, (h5 x hx).1, (h5 x hx).2]
    · rw [List.getElem?_eq_none (by omega), List.getElem?_eq_none (by omega)]
  have h7 : adf.div seeds.length .time = cdf.div seeds.length .time := by
    unfold ModuleTable.div; rw [h6]
  refine ⟨fun k =>
        if k = .time then adf.div seeds.length .time
        else if k ∈ lossKeys then
          (addArr (adf.div seeds.length k) (cdf.div seeds.length k)).map (· / 2)
        else addArr (adf.div seeds.length k) (cdf.div seeds.length k), ?_⟩
  unfold astCometSeeds
  simp only [bind, Except.bind, h1, liftPy, h2]
  rw [if_neg hs, if_pos h7]

/-- **C89** (part of the claim that the figure shows the ice and losses of runs): at each time the
impactor and basin columns together are the mean over the seeds of the ice delivered by asteroids
in the run with that seed, plus the mean ice of comets; the losses are the gardening depth and the
mean over seeds and cold traps of the depth removed by ballistic sedimentation.  The volcanic and
solar wind columns are twice what a run deposits, and are so counted in the total.  Missing: that
they are counted once, which is false. -/
theorem C89_modules_partial (g : Gen σ) (hgen : LawfulGen g) (c : RunCfg) (d : RunData)
    (hc : PhysicalCfg c) (hd : PhysicalData c d) (hr : Runnable c d) (draw : Nat → Int)
    (seeds : List Int) (t : ModuleTable) (h : astCometSeeds g c d draw seeds = .ok t) :
    ∃ time volc solar runs, getTimeArray c.timestart c.timeend c.timestep = .ok time ∧
      volcanicIce c.volc_mode c.ice c.head (fun x => (roundHalfEven x : ℝ)) d.sortNk
        RunCfg.rtol c.timestep time d.nk = .ok volc ∧
      solarWindIce c.solar (readLuminosity d.lum) time = .ok solar ∧
      List.Forall₂ (fun n (r : List ℝ × List ℝ × List ℝ) =>
        SeedRun g { c with seed := n } d time r.1 r.2.1 r.2.2) (usedSeeds draw seeds) runs ∧
      t .time = time ∧ figCol t .gardening = overturnDepth c.overturn time ∧
      (∀ k, (figCol t k).length = time.length) ∧
      ∀ (i : Nat) v w, volc[i]? = some v → solar[i]? = some w →
        (figCol t .volcanic)[i]? = some (2 * v) ∧ (figCol t .solar)[i]? = some (2 * w) ∧
        (figCol t .bsed)[i]? = some (meanOver runs (fun r => r.2.2.getD i 0)) ∧
        (figCol t .impactor).getD i 0 + (figCol t .basin).getD i 0 =
          meanOver runs (fun r => r.1.getD i 0 + r.2.1.getD i 0) ∧
        (figCol t .total)[i]? =
          some (meanOver runs (fun r => r.1.getD i 0 + r.2.1.getD i 0) + 2 * (v + w)) := by
  obtain ⟨time, ts, h1, hne, h2, h3⟩ := astCometSeeds_inv g c d draw seeds t h
  obtain ⟨time', h1', hne', -⟩ := timeArray_last hc hr
  rw [h1] at h1'
  cases h1'
  obtain ⟨volc, v1, v2⟩ := volcanicIce_ok hc hd time
  obtain ⟨solar, w1, w2⟩ := solarWindIce_ok hc hd time
  obtain ⟨runs, f1, f2⟩ := forall₂_split
    (P := fun n (r : List ℝ × List ℝ × List ℝ) =>
        SeedRun g { c with seed := n } d time r.1 r.2.1 r.2.2)
    (Q := fun (x : ModuleTable × ModuleTable) (r : List ℝ × List ℝ × List ℝ) =>
      (∀ k, (x.1 k).length = time.length ∧ (x.2 k).length = time.length) ∧
      x.1 .time = time ∧ x.1 .volcanic = volc ∧ x.2 .volcanic = volc ∧ x.1 .solar = solar ∧
      x.2 .solar = solar ∧ x.1 .gardening = overturnDepth c.overturn time ∧
      x.2 .gardening = overturnDepth c.overturn time ∧ x.1 .bsed = r.2.2 ∧ x.2 .bsed = r.2.2 ∧
      ∀ i : Nat,
        r.1.getD i 0 = (impactorKeys.map (fun j => (x.1 j).getD i 0)).sum + (x.1 .basin).getD i 0 ∧
        r.2.1.getD i 0 = (impactorKeys.map (fun j => (x.2 j).getD i 0)).sum +
          (x.2 .basin).getD i 0) h2 (by
    rintro n ⟨x, y⟩ ⟨q1, q2⟩
    obtain ⟨a, k, b, p1, p2, p3, p4, p5, p6, p7, p8, p9, p10, p11, p12, p13⟩ := seed_modules g hgen
      (c := { c with seed := n }) { hc with } { hd with } { hr with } h1 hne' q1 q2
    have p6' : x .volcanic = volc := by
      have p6 : volcanicIce c.volc_mode c.ice c.head (fun x => (roundHalfEven x : ℝ)) d.sortNk
        RunCfg.rtol c.timestep time d.nk = .ok (x .volcanic) := p6
      rw [v1] at p6
      injection p6 with p6
      exact p6.symm
    have p8' : x .solar = solar := by
      have p8 : solarWindIce c.solar (readLuminosity d.lum) time = .ok (x .solar) := p8
      rw [w1] at p8
      injection p8 with p8
      exact p8.symm
    exact ⟨(a, k, b), p1, p3, p4, p6', p7.trans p6', p8', p9.trans p8', p10, p11, p12, p13, p2⟩)
  have hq : ∀ x ∈ ts, _ := forall₂_right f2
  have hlen : ∀ x ∈ ts, ∀ k, (x.1 k).length = time.length ∧ (x.2 k).length = time.length := by
    intro x hx
    obtain ⟨r, h, -⟩ := hq x hx
    exact h
  have h4 := h3 hlen
  have hn : ts.length = seeds.length := by
    rw [← h2.length_eq]; simp [usedSeeds]
  have hn' : runs.length = seeds.length := by rw [← f2.length_eq, hn]
  have hn0 : seeds.length ≠ 0 := fun h => hne (List.length_eq_zero_iff.1 h)
  have hcol : ∀ k (l : List ℝ), k ≠ .time → (∀ x ∈ ts, x.1 k = l ∧ x.2 k = l) → ∀ i : Nat,
      (t k).getD i 0 = (l.getD i 0 + l.getD i 0) / (if k ∈ lossKeys then 2 else 1) := by
    intro k l hk hx i
    rw [(h4 k).2 i, if_neg hk,
      mean_const ts (fun x => (x.1 k).getD i 0) (l.getD i 0) seeds.length hn hn0
        (fun x hm => by rw [(hx x hm).1]),
      mean_const ts (fun x => (x.2 k).getD i 0) (l.getD i 0) seeds.length hn hn0
        (fun x hm => by rw [(hx x hm).2])]
  have key : ∀ i : Nat, (impactorKeys.map (fun k => (t k).getD i 0)).sum + (t .basin).getD i 0 =
      meanOver runs (fun r => r.1.getD i 0 + r.2.1.getD i 0) := by
    intro i
    unfold meanOver
    rw [hn', ← forall₂_sum f2 (fun x =>
      ((impactorKeys.map (fun j => (x.1 j).getD i 0)).sum + (x.1 .basin).getD i 0) +
      ((impactorKeys.map (fun j => (x.2 j).getD i 0)).sum + (x.2 .basin).getD i 0))
      (fun r => r.1.getD i 0 + r.2.1.getD i 0) (by
        rintro x r ⟨-, -, -, -, -, -, -, -, -, -, e⟩
        rw [(e i).1, (e i).2])]
    simp only [impactorKeys, List.map_cons, List.map_nil, List.sum_cons, List.sum_nil,
      List.sum_map_add]
    rw [(h4 .micrometeorite).2, (h4 .smallImpactor).2, (h4 .smallSimple).2, (h4 .largeSimple).2,
      (h4 .largeComplex).2, (h4 .basin).2]
    simp only [lossKeys, List.mem_cons, List.not_mem_nil, reduceCtorEq, or_self, if_false, div_one,
      List.map_const', List.sum_replicate, smul_zero]
    ring
  have gcol : t .gardening = overturnDepth c.overturn time := by
    apply List.ext_getElem?
    intro i
    have e := hcol .gardening _ (by decide) (fun x hx => by
      obtain ⟨r, -, -, -, -, -, -, e1, e2, -⟩ := hq x hx; exact ⟨e1, e2⟩) i
    rw [if_pos (by decide)] at e
    by_cases hi : i < time.length
    · rw [getElem?_of_getD (by rw [(h4 .gardening).1]; exact hi) e,
        getElem?_of_getD (x := (overturnDepth c.overturn time).getD i 0)
          (by rw [overturn_length]; exact hi) rfl]
      congr 1
      ring
    · rw [List.getElem?_eq_none (by rw [(h4 .gardening).1]; omega),
        List.getElem?_eq_none (by rw [overturn_length]; omega)]
  have tcol : t .time = time := by
    apply List.ext_getElem?
    intro i
    have e := (h4 .time).2 i
    rw [if_pos rfl, mean_const ts (fun x => (x.1 .time).getD i 0) (time.getD i 0) seeds.length hn
      hn0 (fun x hx => by obtain ⟨r, -, e, -⟩ := hq x hx; rw [e])] at e
    by_cases hi : i < time.length
    · rw [getElem?_of_getD (by rw [(h4 .time).1]; exact hi) e,
        getElem?_of_getD (x := time.getD i 0) hi rfl]
    · rw [List.getElem?_eq_none (by rw [(h4 .time).1]; omega), List.getElem?_eq_none (by omega)]
  have hlens : ∀ k, (figCol t k).length = time.length := by
    intro k
    cases k
    exacts [(sumCols_getD t _ _ 0 (fun k => (h4 k).1)).1,
      (sumCols_getD t _ _ 0 (fun k => (h4 k).1)).1, (h4 _).1, (h4 _).1, (h4 _).1, (h4 _).1, (h4 _).1]
  refine ⟨time, volc, solar, runs, h1, v1, w1, f1, tcol, gcol, hlens, ?_⟩
  intro i v w hv hw
  have hi : i < time.length := by rw [← v2.1]; exact (List.getElem?_eq_some_iff.1 hv).1
  have ev := hcol .volcanic volc (by decide) (fun x hx => by
    obtain ⟨r, -, -, e1, e2, -⟩ := hq x hx; exact ⟨e1, e2⟩) i
  have ew := hcol .solar solar (by decide) (fun x hx => by
    obtain ⟨r, -, -, -, -, e1, e2, -⟩ := hq x hx; exact ⟨e1, e2⟩) i
  rw [if_neg (by decide), div_one, getD_of_getElem? hv] at ev
  rw [if_neg (by decide), div_one, getD_of_getElem? hw] at ew
  refine ⟨?_, ?_, ?_, ?_, ?_⟩
  · exact getElem?_of_getD (by rw [hlens]; exact hi) (ev.trans (by ring))
  · exact getElem?_of_getD (by rw [hlens]; exact hi) (ew.trans (by ring))
  · refine getElem?_of_getD (by rw [hlens]; exact hi) (((h4 .bsed).2 i).trans ?_)
    rw [if_neg (by decide), if_pos (by decide)]
    unfold meanOver
    rw [hn', forall₂_sum f2 (fun x => (x.1 .bsed).getD i 0) (fun r => r.2.2.getD i 0) (by
        rintro x r ⟨-, -, -, -, -, -, -, -, e, -⟩; rw [e]),
      forall₂_sum f2 (fun x => (x.2 .bsed).getD i 0) (fun r => r.2.2.getD i 0) (by
        rintro x r ⟨-, -, -, -, -, -, -, -, -, e, -⟩; rw [e])]
    ring
  · rw [← key i]
    change (sumCols t impactorKeys).getD i 0 + _ = _
    rw [(sumCols_getD t _ _ i (fun k => (h4 k).1)).2]
    rfl
  · refine getElem?_of_getD (by rw [hlens]; exact hi) ?_
    change (sumCols t (impactorKeys ++ otherIceKeys)).getD i 0 = _
    rw [(sumCols_getD t _ _ i (fun k => (h4 k).1)).2, ← key i, List.map_append, List.sum_append]
    simp only [otherIceKeys, List.map_cons, List.map_nil, List.sum_cons, List.sum_nil]
    rw [ev, ew]
    ring

/-- **C89** seeds: the figure depends on the numbers drawn in place of seeds 0 and on no others, so
without a seed 0 it can be reproduced. -/
theorem C89_seeds (g : Gen σ) (c : RunCfg) (d : RunData) (draw draw' : Nat → Int)
    (hdr : ∀ i, draw i ≠ 0) (seeds : List Int) :
    astCometSeeds g c d draw seeds = astCometSeeds g c d draw' (usedSeeds draw seeds) ∧
    (0 ∉ seeds → usedSeeds draw seeds = seeds) := by
  constructor
  · have hu : seedsFrom draw 0 seeds = usedSeeds draw seeds := by
      unfold seedsFrom usedSeeds
      congr 1
      funext j n
      rw [Nat.zero_add]
    have hl : (usedSeeds draw seeds).length = seeds.length := by simp [usedSeeds]
    have hn : usedSeeds draw seeds = [] ↔ seeds = [] := by
      rw [← List.length_eq_zero_iff, hl, List.length_eq_zero_iff]
    unfold astCometSeeds
    simp only [usedSeeds_loop g c d draw draw' _ hdr seeds 0 0, hu, hl, hn]
  · intro h0
    unfold usedSeeds
    apply List.ext_getElem?
    intro i
    rw [List.getElem?_mapIdx]
    cases e : seeds[i]? with
    | none => rfl
    | some n =>
      have : n ≠ 0 := by rintro rfl; exact h0 (List.mem_of_getElem? e)
      simp [this]

/-- **C89 refuted**: with the default configuration and the shipped data, the total of the figure
for one seed is not the ice that the run with that seed brings to the pole. -/
theorem C89_refuted : ¬ ∀ (σ : Type) (g : Gen σ), LawfulGen g → ∀ (c : RunCfg) (d : RunData),
    PhysicalCfg c → PhysicalData c d → Runnable c d → c.seed ≠ 0 →
    ∀ draw t time df s polar s' volc, astCometSeeds g c d draw [c.seed] = .ok t →
      getTimeArray c.timestart c.timeend c.timestep = .ok time →
      craterBasinList g c d (g.init c.seed) = .ok (df, s) →
      polarIce g c (readLuminosity d.lum) df time s = .ok (polar, s') →
      volcanicIce c.volc_mode c.ice c.head (fun x => (roundHalfEven x : ℝ)) d.sortNk
        RunCfg.rtol c.timestep time d.nk = .ok volc →
      ∀ (i : Nat) p v, polar[i]? = some p → volc[i]? = some v →
        (figCol t .total)[i]? = some (p + v) := by
  intro H
  obtain ⟨d, hd⟩ : ∃ t, t = shippedData [] sortDesc id id := ⟨_, rfl⟩
  have pd : PhysicalData (RunCfg.default 1) d := hd ▸ default_data [] sortDesc id id sortDesc_spec 1
  have pr : Runnable (RunCfg.default 1) d := hd ▸ default_runnable [] sortDesc id id 1
  have pc := default_physical 1
  obtain ⟨t, ht⟩ := C89_returns constGen constGen_lawful _ d pc pd pr (fun _ => 1) [1] (by simp)
  obtain ⟨time, volc, solar, runs, h1, h2, h3, h4, -, -, -, h5⟩ := C89_modules_partial constGen
    constGen_lawful _ d pc pd pr (fun _ => 1) [1] t ht
  obtain ⟨time', e1, e2⟩ := default_time 1
  rw [h1] at e1
  cases e1
  obtain ⟨v, hv, hv0⟩ := default_volc d 1 time volc e2 h2
  have hu : usedSeeds (fun _ => 1) [1] = [1] := rfl
  rw [hu] at h4
  cases h4 with
  | cons hr hn =>
    rename_i r _
    cases hn
    obtain ⟨⟨l1, l2, -⟩, st, s, -, -, q1, ⟨s1, q2⟩, ⟨s2, q3⟩, -⟩ := hr
    obtain ⟨solar', w1, w2, w3⟩ := solarWindIce_ok pc pd time
    rw [h3] at w1
    cases w1
    have hlt : 50 < time.length := by
      have := (volcanicIce_ok pc pd time)
      obtain ⟨vv, z1, z2, -⟩ := this
      rw [h2] at z1
      cases z1
      rw [← z2]
      exact (List.getElem?_eq_some_iff.1 hv).1
    have hw : solar[50]? = some (solar.getD 50 0) := getElem?_of_getD (by rw [w2]; exact hlt) rfl
    have hw0 := w3 _ (List.mem_of_getElem? hw)
    have hpol : polarIce constGen (RunCfg.default 1) (readLuminosity d.lum) st.df time s =
        .ok (addArr (addArr r.1 r.2.1) solar, s2) := by
      unfold polarIce
      have q2' : impactIce constGen (RunCfg.default 1) st.df time s = .ok (r.1, s1) := q2
      have q3' : impactIceComet constGen (RunCfg.default 1) st.df time s1 = .ok (r.2.1, s2) := q3
      simp only [bind, Except.bind, q2', q3', h3]
      rfl
    have hl3 := addArr_length l1 l2
    have hp : (addArr (addArr r.1 r.2.1) solar)[50]? =
        some (r.1.getD 50 0 + r.2.1.getD 50 0 + solar.getD 50 0) := by
      refine getElem?_of_getD (by rw [addArr_length hl3 w2]; exact hlt) ?_
      rw [addArr_getD (hl3.trans w2.symm), addArr_getD (l1.trans l2.symm)]
    have := H Unit constGen constGen_lawful (RunCfg.default 1) d pc pd pr (by decide) (fun _ => 1) t
      time st.df s _ s2 volc ht h1 q1 hpol h2 50 _ v hp hv
    rw [(h5 50 v _ hv hw).2.2.2.2] at this
    simp only [meanOver, List.map_cons, List.map_nil, List.sum_cons, List.sum_nil, List.length_cons,
      List.length_nil, Option.some.injEq] at this
    generalize r.1.getD 50 0 = A, r.2.1.getD 50 0 = B, solar.getD 50 0 = C at this hw0
    norm_num at this
    linarith

/-- C89 speaks of existing figures: the default configuration with the shipped data. -/
example : ∃ t, astCometSeeds constGen (RunCfg.default 1) (shippedData [] sortDesc id id)
    (fun _ => 7) [0, 1, 2] = .ok t :=
  C89_returns constGen constGen_lawful _ _ (default_physical 1)
    (default_data [] sortDesc id id sortDesc_spec 1) (default_runnable [] sortDesc id id 1) _ _
    (by simp)

end MoonPIES
