import Verif.Props.MainPhysical
import Verif.Props.CannonRun
import Verif.Props.Traps

/-!
# C175: two cold traps of one run
-/

namespace MoonPIES

open Spec

deriving instance DecidableEq for StratCol

section
variable {K : Type} [Field K] [LinearOrder K] [IsStrictOrderedRing K]

theorem overturnOnly_mono {shield : K} {costello : Bool} {ej₁ ej₂ : List K} (he0 : ∀ x ∈ ej₁, 0 ≤ x)
    (he : List.Forall₂ (· ≤ ·) ej₁ ej₂) : ∀ (ovs : List K) (t : Nat) (ice₁ ice₂ r₁ r₂ : List K),
      (∀ x ∈ ice₁, 0 ≤ x) → List.Forall₂ (· ≤ ·) ice₁ ice₂ →
      overturnOnly (fun x => x) shield costello ej₁ t ovs ice₁ = .ok r₁ →
      overturnOnly (fun x => x) shield costello ej₂ t ovs ice₂ = .ok r₂ → List.Forall₂ (· ≤ ·) r₁ r₂ := by
  intro ovs
  induction ovs with
  | nil => intro t ice₁ ice₂ r₁ r₂ _ h e₁ e₂; cases e₁; cases e₂; exact h
  | cons ov ovs ih =>
    intro t ice₁ ice₂ r₁ r₂ h0 h e₁ e₂
    have step : ∀ (ice ej : List K), updateIceCol (fun x => x) shield costello ice ej t ov 0 0 =
        removeIceOverturn (fun x => x) shield costello ice ej t ov := by
      intro ice ej
      unfold updateIceCol
      rw [C02_garden_no_depth (fun x => x) ice ej _ 0 0 le_rfl]
      rfl
    unfold overturnOnly at e₁ e₂
    obtain ⟨m₁, a₁, e₁⟩ := bind_ok_inv e₁
    obtain ⟨m₂, a₂, e₂⟩ := bind_ok_inv e₂
    rw [← step] at a₁ a₂
    obtain ⟨k1, k2⟩ := updateIceCol_mono h0 he0 h he le_rfl le_rfl le_rfl le_rfl zero_le_one a₁ a₂
    exact ih (t + 1) m₁ m₂ r₁ r₂ k2 k1 e₁ e₂

/-- **C175** of the layers: with no ballistic sedimentation, of two cold traps updated together the one that got at
least as much ice and ejecta at every timestep keeps at least as much ice in every layer, whichever way of gardening
is used and wherever the two stand in the list. -/
theorem C175_columns (shield : K) (costello : Bool) (names : List String) (hnd : names.Nodup)
    (cols cols' : PyDict (StratCol K)) (overturn : List K) (bsedDepth bsedFrac : List (List K))
    (hzero : ∀ row ∈ bsedDepth, ∀ x ∈ row, x ≤ 0)
    (h : updateStratCols (fun x => x) shield costello names cols overturn bsedDepth bsedFrac = .ok cols')
    (a b : String) (ha : a ∈ names) (hb : b ∈ names) (p q : StratCol K) (hp : cols.get a = .ok p)
    (hq : cols.get b = .ok q) (hice0 : ∀ x ∈ p.ice, 0 ≤ x) (hej0 : ∀ x ∈ p.ej, 0 ≤ x)
    (hice : List.Forall₂ (· ≤ ·) p.ice q.ice) (hej : List.Forall₂ (· ≤ ·) p.ej q.ej) :
    ∃ p' q', cols'.get a = .ok p' ∧ cols'.get b = .ok q' ∧ List.Forall₂ (· ≤ ·) p'.ice q'.ice := by
  obtain ⟨p', p1, -, -, p2⟩ := C13_no_sedimentation _ shield costello names hnd cols cols' overturn bsedDepth bsedFrac
    hzero h a ha p hp
  obtain ⟨q', q1, -, -, q2⟩ := C13_no_sedimentation _ shield costello names hnd cols cols' overturn bsedDepth bsedFrac
    hzero h b hb q hq
  exact ⟨p', q', p1, q1, overturnOnly_mono hej0 hej overturn 0 _ _ _ _ hice0 hice p2 q2⟩

/-- C175 on two traps: the second gets as much ice and more ejecta, and keeps more. -/
example : (updateStratCols (fun x => x) (2 / 5) true ["A", "B"]
      [("A", ⟨[2, 1], [0, 0], []⟩), ("B", ⟨[2, 1], [0, 1 / 2], []⟩)] [1, 1] [[0, 0], [0, 0]] [[0, 0], [0, 0]]).map
      (fun c => c.map (·.2.ice)) = .ok [[(0 : ℚ), 0], [1, 1 / 2]] := by
  decide +kernel

/-- **C175** needs that ballistic sedimentation is off: where the ejecta of a trap also churn it deeper, more ejecta can
leave less ice, even though everything that arrives is at least as much. -/
theorem C175_sedimentation : ¬ ∀ (names : List String) (cols cols' : PyDict (StratCol ℚ)) (overturn : List ℚ)
    (bsedDepth bsedFrac : List (List ℚ)) (p q p' q' : StratCol ℚ), names.Nodup →
    updateStratCols (fun x => x) (2 / 5) true names cols overturn bsedDepth bsedFrac = .ok cols' →
    "A" ∈ names → "B" ∈ names → cols.get "A" = .ok p → cols.get "B" = .ok q → (∀ x ∈ p.ice, 0 ≤ x) →
    (∀ x ∈ p.ej, 0 ≤ x) → List.Forall₂ (· ≤ ·) p.ice q.ice → List.Forall₂ (· ≤ ·) p.ej q.ej →
    cols'.get "A" = .ok p' → cols'.get "B" = .ok q' → List.Forall₂ (· ≤ ·) p'.ice q'.ice := by
  intro h
  have hup : updateStratCols (fun x => x) (2 / 5) true ["A", "B"]
      [("A", ⟨[2, 1], [0, 0], []⟩), ("B", ⟨[2, 1], [0, 1 / 2], []⟩)] [0, 0] [[0, 0], [0, 3]] [[0, 0], [0, 1]] =
      .ok [("A", ⟨[(2 : ℚ), 1], [0, 0], []⟩), ("B", ⟨[0, 1], [0, 1 / 2], []⟩)] := by decide +kernel
  have := h ["A", "B"] [("A", ⟨[2, 1], [0, 0], []⟩), ("B", ⟨[2, 1], [0, 1 / 2], []⟩)]
    [("A", ⟨[2, 1], [0, 0], []⟩), ("B", ⟨[0, 1], [0, 1 / 2], []⟩)] [0, 0] [[0, 0], [0, 3]] [[0, 0], [0, 1]]
    ⟨[2, 1], [0, 0], []⟩ ⟨[2, 1], [0, 1 / 2], []⟩ ⟨[2, 1], [0, 0], []⟩ ⟨[0, 1], [0, 1 / 2], []⟩ (by decide)
    hup (by simp) (by simp) rfl rfl (by simp) (by simp) (by simp) (by simp) rfl rfl
  simp at this
  norm_num at this

end

variable {σ : Type}

/-- Deliveries of one run to two cold traps: the one with the larger hop efficiency gets at least as much. -/
theorem delivered_le {c : RunCfg} {d : RunData} (hc : PhysicalCfg c) {n : Nat} {polar volc : List ℝ}
    (hp : NNArr n polar) (hv : NNArr n volc) {rows : List (List ℝ)} (h : iceColsTime c.cols d.hop polar volc = .ok rows)
    {j k : Nat} {a b : String} (hj : c.coldtrap_names[j]? = some a) (hk : c.coldtrap_names[k]? = some b)
    (hhop : c.ballistic_hop_moores = true → ∀ x y, d.hop.get a = .ok x → d.hop.get b = .ok y → x ≤ y) :
    List.Forall₂ (· ≤ ·) (column rows j) (column rows k) := by
  obtain ⟨pv, x, h1, h2, h3⟩ := iceColsTime_col h (j := j) (name := a) hj
  obtain ⟨pv', y, k1, k2, k3⟩ := iceColsTime_col h (j := k) (name := b) hk
  rw [h1] at k1
  injection k1 with k1
  subst k1
  have hpv : ∀ z ∈ pv.1, 0 ≤ z := by
    unfold volcShare at h1
    split at h1
    · split at h1
      · cases h1
      · injection h1 with h1
        subst h1
        exact hp.2
    · injection h1 with h1
      subst h1
      exact (addArr_nn hp hv).2
  rw [h3, k3, forall₂_iff_getElem?]
  refine ⟨by simp, ?_⟩
  intro i u w hu hw
  rw [List.getElem?_zipWith] at hu hw
  rcases e1 : pv.1[i]? with _ | z
  · simp [e1] at hu
  rcases e2 : pv.2[i]? with _ | v
  · simp [e1, e2] at hu
  simp only [e1, e2, Option.some.injEq] at hu hw
  rw [← hu, ← hw]
  by_cases hm : c.ballistic_hop_moores = true
  · rw [if_pos (show c.cols.ballistic_hop_moores = true from hm), if_pos (show c.cols.ballistic_hop_moores = true from hm)]
    have hxy := hhop hm x y (h2 hm) (k2 hm)
    have := mul_le_mul_of_nonneg_right (div_le_div_of_nonneg_right hxy hc.hop.le) (hpv z (List.mem_of_getElem? e1))
    exact add_le_add_left this v
  · rw [if_neg (show ¬ c.cols.ballistic_hop_moores = true from hm), if_neg (show ¬ c.cols.ballistic_hop_moores = true from hm)]

/-- **C175** of whole runs: with ballistic sedimentation off, of two cold traps of a run the one with at least the hop
efficiency of the other, and at least its ejecta at every timestep, keeps at least as much ice in every layer.  When
all cold traps get the same ice the hop efficiencies do not matter. -/
theorem C175_run (g : Gen σ) (hg : LawfulGen g) (c : RunCfg) (d : RunData) (hc : PhysicalCfg c)
    (hd : PhysicalData c d) (hl : Lunar c d) (hnd : c.coldtrap_names.Nodup) (hoff : c.ballistic_sed = false)
    (out : CsvOut) (hrun : runMain g c d = .ok out) (a b : String) (ha : a ∈ c.coldtrap_names)
    (hb : b ∈ c.coldtrap_names)
    (hhop : c.ballistic_hop_moores = true → ∀ x y, d.hop.get a = .ok x → d.hop.get b = .ok y → x ≤ y)
    (hej : ∀ ea eb, out.ej.get a = .ok ea → out.ej.get b = .ok eb → List.Forall₂ (· ≤ ·) ea eb) :
    ∃ ia ib, out.ice.get a = .ok ia ∧ out.ice.get b = .ok ib ∧ List.Forall₂ (· ≤ ·) ia ib := by
  obtain ⟨j, hj⟩ := List.mem_iff_getElem?.1 ha
  obtain ⟨k, hk⟩ := List.mem_iff_getElem?.1 hb
  obtain ⟨df0, z0, time0, -, -, hsteps⟩ := run_steps_nonneg g hg c d hc hd hl hnd out hrun
  obtain ⟨trap0, -, -, steps, table0, -, s2, -, -, -, s3, -⟩ := hsteps a ha
  unfold runMain at hrun
  obtain ⟨st, hst, hrun⟩ := bind_ok_inv hrun
  obtain ⟨cols, hcols, hrun⟩ := bind_ok_inv hrun
  have hrun := liftPy_ok hrun
  have hcols := liftPy_ok hcols
  obtain ⟨hne, hfmt⟩ := formatCsv_inv _ _ _ _ _ _ hrun
  obtain ⟨ht, s, s', rows, hdf, hice, hrl, hrn, hget, hall⟩ := setup_cols g hg hc hd hnd hne st hst
  obtain ⟨s1, s2', dists, thick, h1, -, -, -, -, hbsed, hov⟩ := setup_inv g c d st hst
  have hzero : ∀ row ∈ st.bsedDepth, ∀ x ∈ row, x ≤ 0 := by
    unfold bsedArrays at hbsed
    obtain ⟨o, ho, hbsed⟩ := bind_ok_inv hbsed
    injection hbsed with hbsed
    injection hbsed with hb1 hb2
    obtain ⟨o', ho', -, hz⟩ := C51_off c.bsed d.melt (mixingRatio c.mixing_ratio_petro c.mixing_ratio_a
      c.mixing_ratio_b) st.time (st.df.map (·.age)) (st.df.map (·.rest.crater.isbasin))
      ((List.range c.coldtrap_names.length).map (fun i => (column dists i, column thick i))) hoff
    rw [ho'] at ho
    injection ho with ho
    subst ho
    rw [← hb1]
    intro row hrow x hx
    obtain ⟨i, -, rfl⟩ := List.mem_map.1 hrow
    obtain ⟨l, hl, hxl⟩ := mem_column hx
    obtain ⟨p, hp, rfl⟩ := List.mem_map.1 hl
    exact ((hz p hp).2.2.1 x hxl).le
  obtain ⟨p, p1, p2⟩ := hget j a hj
  obtain ⟨q, q1, q2⟩ := hget k b hk
  obtain ⟨r0, -, -, p', table1, t1, -, t3, t4, -⟩ := hfmt a ha
  obtain ⟨r1, -, -, q', table2, u1, -, u3, u4, -⟩ := hfmt b hb
  obtain ⟨p'', v1, v2, -⟩ := C13_no_sedimentation _ ejShield _ c.coldtrap_names hnd st.cols cols
    st.overturn st.bsedDepth st.bsedFrac hzero hcols a ha p p1
  obtain ⟨q'', w1, w2, -⟩ := C13_no_sedimentation _ ejShield _ c.coldtrap_names hnd st.cols cols
    st.overturn st.bsedDepth st.bsedFrac hzero hcols b hb q q1
  rw [t1] at v1; injection v1 with v1; subst v1
  rw [u1] at w1; injection w1 with w1; subst w1
  have hle := hej _ _ t4 u4
  rw [v2, w2] at hle
  rw [t4] at s2
  injection s2 with s2
  rw [v2] at s2
  have hrows : List.Forall₂ (· ≤ ·) (column rows j) (column rows k) := by
    have hrad := craterBasinList_rad g hd _ _ _ hdf
    obtain ⟨polar, z1, m1, n1⟩ := polarIce_ok g hg hc hd st.df hrad st.time ht s
    obtain ⟨volc, m2, n2⟩ := volcanicIce_ok hc hd st.time
    unfold iceCols at hice
    simp only [bind, Except.bind, m1, m2] at hice
    rcases e : iceColsTime c.cols d.hop polar volc with _ | r
    · rw [e] at hice; cases hice
    · rw [e] at hice
      injection hice with hice
      injection hice with hice
      subst hice
      exact delivered_le hc n1 n2 e hj hk hhop
  obtain ⟨x, y, x1, y1, hfin⟩ := C175_columns ejShield c.impact_gardening_costello c.coldtrap_names hnd st.cols cols
    st.overturn st.bsedDepth st.bsedFrac hzero hcols a b ha hb p q p1 q1 (hall _ (PyDict.mem_of_get p1)).2.2.2
    (by
      rw [s2]
      intro x hx
      obtain ⟨w, hw, rfl⟩ := List.mem_map.1 hx
      exact (s3 w hw).2)
    (by rw [p2, q2]; exact hrows) hle
  rw [t1] at x1; injection x1 with x1; subst x1
  rw [u1] at y1; injection y1 with y1; subst y1
  exact ⟨_, _, t3, u3, hfin⟩

/-- **C175** when blankets end at the rim no ejecta fall on any cold trap, and the cold traps of a run without ballistic
sedimentation are ordered by their hop efficiencies, layer by layer. -/
theorem C175_no_ejecta (g : Gen σ) (hg : LawfulGen g) (c : RunCfg) (d : RunData) (hc : PhysicalCfg c)
    (hd : PhysicalData c d) (hl : Lunar c d) (hnd : c.coldtrap_names.Nodup) (hoff : c.ballistic_sed = false)
    (hthr : 0 ≤ c.ej_threshold ∧ c.ej_threshold ≤ 1) (hthr' : 0 ≤ c.basin_ej_threshold ∧ c.basin_ej_threshold ≤ 1)
    (out : CsvOut) (hrun : runMain g c d = .ok out) :
    (∀ name ∈ c.coldtrap_names, ∃ ej, out.ej.get name = .ok ej ∧ ∀ x ∈ ej, x = 0) ∧
    ∀ a ∈ c.coldtrap_names, ∀ b ∈ c.coldtrap_names,
      (c.ballistic_hop_moores = true → ∀ x y, d.hop.get a = .ok x → d.hop.get b = .ok y → x ≤ y) →
      ∃ ia ib, out.ice.get a = .ok ia ∧ out.ice.get b = .ok ib ∧ List.Forall₂ (· ≤ ·) ia ib := by
  obtain ⟨df, s, time, hdf, htime, hsteps⟩ := run_steps g hg c d hc hd hnd out hrun
  have hrow : ∀ name, ∀ r ∈ df, ∀ x, RowEjecta c df name r x → x = 0 := by
    intro name r hr x ⟨dist, h1, h2⟩
    have hrad : 0 ≤ r.rest.crater.rad := by
      obtain ⟨z, mid, h3, h4⟩ := craterBasinList_inv g c d _ _ _ hdf
      have hm : r ∈ mid := by
        rw [h4] at hr
        exact (hd.sorted mid).1.mem_iff.1 hr
      have hrest : r.rest ∈ (rawTable g c d (g.init c.seed)).map (·.rest) := by
        rw [← newAges_rest _ _ _ _ _ h3]; exact List.mem_map_of_mem hm
      obtain ⟨q, hq, e⟩ := List.mem_map.1 hrest
      obtain ⟨raw, hraw, b, icy, hq'⟩ := rawTable_mem g c d _ q hq
      obtain ⟨k1, -⟩ := hl.diam raw hraw
      rw [← e, hq']
      simp only [readRow]
      positivity
    have hnone : dist = none := by
      have hblank : ∀ thr dd : ℝ, 0 ≤ thr → thr ≤ 1 → ¬ inBlanket r.rest.crater.rad thr dd := by
        rintro thr dd h0 h1 ⟨k1, k2⟩
        rw [if_neg (not_lt.2 h0)] at k2
        nlinarith
      have hthr'' : 0 ≤ (if r.rest.crater.isbasin = true then c.ej.basin_ej_threshold else c.ej.ej_threshold) ∧
          (if r.rest.crater.isbasin = true then c.ej.basin_ej_threshold else c.ej.ej_threshold) ≤ 1 := by
        split
        · exact hthr'
        · exact hthr
      unfold coldtrapDist at h1
      simp only at h1
      split at h1
      · injection h1 with h1; exact h1.symm
      · split at h1
        · injection h1 with h1; exact h1.symm
        · split at h1
          · injection h1 with h1; exact h1.symm
          · split at h1
            · injection h1 with h1; exact h1.symm
            · rw [if_neg (hblank _ _ hthr''.1 hthr''.2), if_pos le_rfl] at h1
              injection h1 with h1; exact h1.symm
        · cases h1
    subst hnone
    rw [C36_missing_distance, Flt.fin.injEq] at h2
    exact h2.symm
  have hzero : ∀ name ∈ c.coldtrap_names, ∃ ej, out.ej.get name = .ok ej ∧ ej = time.map (fun _ => 0) := by
    intro name hn
    obtain ⟨trap, -, -, steps, table, -, a2, -, a4, -, -, th, a5, a6, -⟩ := hsteps name hn
    refine ⟨_, a2, ?_⟩
    rw [← a4, List.map_map]
    apply List.map_congr_left
    intro st hst
    obtain ⟨i, hi⟩ := List.mem_iff_getElem?.1 hst
    obtain ⟨p, hp, e⟩ := a6 i st hi
    rw [e]
    refine List.sum_eq_zero fun x hx => ?_
    obtain ⟨q, hq, rfl⟩ := List.mem_map.1 hx
    obtain ⟨k, hk⟩ := List.mem_iff_getElem?.1 (List.mem_filter.1 hq).1
    obtain ⟨k1, k2⟩ := List.getElem?_zip_eq_some.1 hk
    exact hrow name q.1 (List.mem_of_getElem? k1) q.2 ((forall₂_iff_getElem?.1 a5).2 k _ _ k1 k2)
  refine ⟨?_, ?_⟩
  · intro name hn
    obtain ⟨ej, h1, rfl⟩ := hzero name hn
    refine ⟨_, h1, fun x hx => ?_⟩
    obtain ⟨_, -, rfl⟩ := List.mem_map.1 hx
    rfl
  · intro a ha b hb hhop
    refine C175_run g hg c d hc hd hl hnd hoff out hrun a b ha hb hhop ?_
    intro ea eb hea heb
    obtain ⟨ea', h1, h2⟩ := hzero a ha
    obtain ⟨eb', h3, h4⟩ := hzero b hb
    rw [hea] at h1; injection h1 with h1
    rw [heb] at h3; injection h3 with h3
    rw [h1, h3, h2, h4]
    exact List.forall₂_same.2 fun x _ => le_rfl

/-- C175 of the shipped files with the hop efficiencies of Moores (2016), blankets that end at the rim and no ballistic
sedimentation: every layer of Faustini has at least the ice of Haworth, whatever the seed. -/
example (g : Gen σ) (hg : LawfulGen g) (seed : Int) (c : RunCfg)
    (hc : c = { RunCfg.default seed with ballistic_sed := false, ej_threshold := 1, basin_ej_threshold := 1 }) :
    ∃ out, runMain g c (shippedData [] sortDesc id id) = .ok out ∧
      ∃ ia ib, out.ice.get "Haworth" = .ok ia ∧ out.ice.get "Faustini" = .ok ib ∧ List.Forall₂ (· ≤ ·) ia ib := by
  have h1 := default_physical seed
  have h2 := default_data [] sortDesc id id sortDesc_spec seed
  have h3 := default_runnable [] sortDesc id id seed
  have h4 := default_lunar [] sortDesc id id seed
  have p1 : PhysicalCfg c := by subst hc; exact { h1 with }
  have p2 : PhysicalData c (shippedData [] sortDesc id id) := by subst hc; exact { h2 with }
  have p3 : Runnable c (shippedData [] sortDesc id id) := by
    subst hc; exact { h3 with covers := fun h => by cases h }
  have p4 : Lunar c (shippedData [] sortDesc id id) := by subst hc; exact { h4 with }
  obtain ⟨out, ho⟩ := C72_returns g hg _ _ p1 p2 p3
  refine ⟨out, ho, (C175_no_ejecta g hg c _ p1 p2 p4 p3.nodup (by subst hc; rfl)
    (by subst hc; exact ⟨zero_le_one, le_rfl⟩) (by subst hc; exact ⟨zero_le_one, le_rfl⟩) out ho).2 "Haworth"
    (by subst hc; simp [RunCfg.default]) "Faustini" (by subst hc; simp [RunCfg.default]) ?_⟩
  intro _ x y hx hy
  have ex : (shippedData [] sortDesc id id).hop.get "Haworth" = .ok ((0.024314361795366585 : ℚ) : ℝ) := by
    simp [shippedData, hopFile, PyDict.get]
  have ey : (shippedData [] sortDesc id id).hop.get "Faustini" = .ok ((0.062161999379547535 : ℚ) : ℝ) := by
    simp [shippedData, hopFile, PyDict.get]
  rw [ex] at hx; injection hx with hx
  rw [ey] at hy; injection hy with hy
  rw [← hx, ← hy]
  norm_num

end MoonPIES
