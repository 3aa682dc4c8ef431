import Verif.Props.Background
import Verif.Props.TwoModels
import Verif.Props.Sources

/-!
# C169: the ice that every run brings, whatever the seed
-/

namespace MoonPIES

open Spec

/-- The ice of micrometeorites of both kinds at `t` [kg]. -/
noncomputable def dust (c : RunCfg) (t : ℝ) : ℝ :=
  micro c .asteroid t + if c.impact_ice_comets then micro c .comet t else 0

/-- What is drawn of a kind of impactors: large simple craters, complex craters and basins, in one chain. -/
def DrawnIce {σ : Type} (g : Gen σ) (c : RunCfg) (k : Kind) (df : CraterTable) (time : List ℝ) (s : σ) (x : List ℝ)
    (s' : σ) : Prop :=
  ∃ d s1 e s2 b, Drawn g c k "d" time s d s1 ∧ Drawn g c k "e" time s1 e s2 ∧ Basins g c k df time s2 b s' ∧
    x.length = time.length ∧ ∀ (i : Nat) y, x[i]? = some y → ∃ di ei bi, d[i]? = some di ∧ e[i]? = some ei ∧
      b[i]? = some bi ∧ y = di + ei + if c.impact_ice_basins then bi else 0

theorem kind_steady {c : RunCfg} (h : PhysicalCfg c) (hcom : c.is_comet = false) (k : Kind) (time : List ℝ) :
    ∃ base : List ℝ, NNArr time.length base ∧
      (∀ (i : Nat) t, time[i]? = some t → ∃ b, base[i]? = some b ∧ perKg c * micro c k t ≤ b) ∧
      ∀ (σ : Type) (g : Gen σ), LawfulGen g → ∀ df : CraterTable,
        (∀ r ∈ df, r.rest.crater.isbasin = true → 0 < r.rest.crater.rad) → time ≠ [] → ∀ s : σ, ∃ x s',
          impactIce g (cfgOf c k) df time s = .ok (addArr base (x.map fun m => perKg c * m), s') ∧
          NNArr time.length x ∧ DrawnIce g c k df time s x s' := by
  have hk := physical_kind h k
  have z : NNArr time.length (time.map (fun _ => (0 : ℝ))) :=
    ⟨List.length_map _, fun x hx => by obtain ⟨_, _, rfl⟩ := List.mem_map.1 hx; exact le_refl _⟩
  obtain ⟨a1, e1, n1⟩ := thicknessOf_nn hk (followsFlux_nn (C42_micrometeorites (cfgOf c k).flux time)
    (C42_micrometeorites_nonneg (cfgOf c k).flux (physical_flux hk)))
  obtain ⟨mind, maxd, step, slope, er, h0, hs, hst, -⟩ := hk.regB
  obtain ⟨today, t0, ht⟩ := C42_small_impactors (cfgOf c k).flux (physical_flux hk) mind maxd step slope er
    h0 hs hst
  obtain ⟨m2, b2, f2⟩ := ht time
  obtain ⟨a2, e2, n2⟩ := thicknessOf_nn hk (followsFlux_nn f2 t0)
  obtain ⟨mind, maxd, step, slope, er, h0, hs, hst, hN, hle⟩ := hk.regC
  obtain ⟨today', t0', ht'⟩ := C42_small_craters (cfgOf c k).flux (physical_flux hk) mind maxd step slope er
    h0 hs hst hN hk.mean hk.rho hk.trho hk.grav hle hk.s2c.2
  obtain ⟨m3, b3, f3⟩ := ht' time
  obtain ⟨a3, e3, n3⟩ := thicknessOf_nn hk (followsFlux_nn f3 t0')
  have ha1 : a1 = time.map (fun t => perKg c * micro c k t) := by
    rw [thicknessOf_eq hk, micro_eq c hcom k time, Except.ok.injEq, List.map_map] at e1
    rw [← e1, perKg_kind]
    rfl
  refine ⟨addArr (addArr (addArr (time.map (fun _ => (0 : ℝ))) a1) a2) a3, addArr_nn (addArr_nn (addArr_nn z n1) n2) n3,
    ?_, ?_⟩
  · intro i t hi
    have hil : i < time.length := (List.getElem?_eq_some_iff.1 hi).1
    have hl : i < (addArr (addArr (addArr (time.map (fun _ => (0 : ℝ))) a1) a2) a3).length := by
      rw [(addArr_nn (addArr_nn (addArr_nn z n1) n2) n3).1]
      exact hil
    refine ⟨_, List.getElem?_eq_getElem hl, ?_⟩
    obtain ⟨y3, x3, g1, g2, g3⟩ := addArr_get (List.getElem?_eq_getElem hl)
    obtain ⟨y2, x2, g4, g5, g6⟩ := addArr_get g1
    obtain ⟨y1, x1, g7, g8, g9⟩ := addArr_get g4
    rw [List.getElem?_map, hi] at g7
    simp only [Option.map_some, Option.some.injEq] at g7
    rw [ha1, List.getElem?_map, hi] at g8
    simp only [Option.map_some, Option.some.injEq] at g8
    have p2 := n2.2 _ (List.mem_of_getElem? g5)
    have p3 := n3.2 _ (List.mem_of_getElem? g2)
    rw [g3, g6, g9, ← g7, ← g8]
    linarith
  · intro σ g hg df hdf hne s
    obtain ⟨d, s1, d1, d2, d3⟩ := iceStochastic_ok g hg hk time "d" (Or.inl rfl) s
    obtain ⟨e, s2, f1, f4, f5⟩ := iceStochastic_ok g hg hk time "e" (Or.inr rfl) s1
    obtain ⟨b, s3, g1, g2⟩ := iceBasins_ok g hg hk df hdf time hne s2
    have nx : NNArr time.length (if c.impact_ice_basins then addArr (addArr d e) b else addArr d e) := by
      split
      · exact addArr_nn (addArr_nn ⟨d2, d3⟩ ⟨f4, f5⟩) g2
      · exact addArr_nn ⟨d2, d3⟩ ⟨f4, f5⟩
    refine ⟨if c.impact_ice_basins then addArr (addArr d e) b else addArr d e, s3, ?_, nx, ?_⟩
    · have hb : (cfgOf c k).impact_ice_basins = c.impact_ice_basins := by cases k <;> rfl
      unfold impactIce nonBasinIce
      simp only [bind, Except.bind, e1, b2, e2, b3, e3, d1, f1, g1, thicknessOf_eq hk, hb, perKg_kind]
      have l1 := n1.1
      have l2 := n2.1
      have l3 := n3.1
      have l4 := g2.1
      congr 2
      split
      · refine List.ext_getElem (by simp [addArr, l1, l2, l3, l4, d2, f4]) fun i h1 h2 => ?_
        simp only [addArr, List.getElem_zipWith, List.getElem_map]
        ring
      · refine List.ext_getElem (by simp [addArr, l1, l2, l3, d2, f4]) fun i h1 h2 => ?_
        simp only [addArr, List.getElem_zipWith, List.getElem_map]
        ring
    · refine ⟨d, s1, e, s2, b, iceStochastic_spec g hg h hcom k "d" (Or.inl rfl) time _ _ _ d1,
        iceStochastic_spec g hg h hcom k "e" (Or.inr rfl) time _ _ _ f1,
        iceBasins_spec g hg h hcom k df hdf time hne _ _ _ g1, nx.1, ?_⟩
      intro i y hy
      have hil : i < time.length := by rw [← nx.1]; exact (List.getElem?_eq_some_iff.1 hy).1
      have hbi : i < b.length := by rw [g2.1]; exact hil
      split at hy
      · rename_i hon
        obtain ⟨p, q, q1, q2, q3⟩ := addArr_get hy
        obtain ⟨p', q', r1, r2, r3⟩ := addArr_get q1
        exact ⟨p', q', q, r1, r2, q2, by rw [q3, r3, if_pos hon]⟩
      · rename_i hoff
        obtain ⟨p', q', r1, r2, r3⟩ := addArr_get hy
        exact ⟨p', q', _, r1, r2, List.getElem?_eq_getElem hbi, by rw [r3, if_neg hoff, add_zero]⟩

/-- The column of a cold trap: the polar ice times its hop efficiency and the volcanic share. -/
theorem iceColsTime_column {c : RunCfg} {d : RunData} (hc : PhysicalCfg c) (hd : PhysicalData c d) (n j : Nat)
    (name : String) (hj : c.coldtrap_names[j]? = some name) :
    ∃ hop κ : ℝ, (if c.ballistic_hop_moores then d.hop.get name = .ok hop else hop = c.ballistic_hop_effcy) ∧ 0 ≤ hop ∧
      0 ≤ κ ∧ ∀ polar volc : List ℝ, NNArr n polar → NNArr n volc → ∃ rows,
        iceColsTime c.cols d.hop polar volc = .ok rows ∧ rows.length = n ∧
        (∀ row ∈ rows, row.length = c.coldtrap_names.length) ∧
        column rows j = addArr (scaleArr (hop / c.ballistic_hop_effcy) polar) (scaleArr κ volc) := by
  obtain ⟨hop, hh, hh0⟩ : ∃ hop, (if c.ballistic_hop_moores then d.hop.get name = .ok hop
      else hop = c.ballistic_hop_effcy) ∧ 0 ≤ hop := by
    by_cases hm : c.ballistic_hop_moores = true
    · obtain ⟨x, hx, hx0⟩ := hd.hops hm name (List.mem_of_getElem? hj)
      exact ⟨x, by rw [if_pos hm]; exact hx, hx0⟩
    · exact ⟨_, by rw [if_neg hm], hc.hop.le⟩
  have hdep := hd.volc.2.2.2.2.2.2
  obtain ⟨κ, hκ⟩ : ∃ κ, κ = (if c.use_volc_dep_effcy then c.volc_dep_effcy / c.ballistic_hop_effcy
    else hop / c.ballistic_hop_effcy) := ⟨_, rfl⟩
  refine ⟨hop, κ, hh, hh0, ?_, ?_⟩
  · rw [hκ]
    split
    · exact div_nonneg hdep hc.hop.le
    · exact div_nonneg hh0 hc.hop.le
  intro polar volc hp hv
  obtain ⟨rows, r1, r2, r3⟩ := iceColsTime_ok hc hd hp hv
  refine ⟨rows, r1, r2, fun row hrow => (r3 row hrow).1, ?_⟩
  obtain ⟨pv, b, k1, k2, k3⟩ := iceColsTime_col r1 (j := j) (name := name) hj
  have hf : ∀ q : ℝ, (if c.cols.ballistic_hop_moores then b / c.cols.ballistic_hop_effcy * q else q) =
      hop / c.ballistic_hop_effcy * q := by
    intro q
    by_cases hm : c.ballistic_hop_moores = true
    · rw [if_pos hm] at hh
      have := k2 hm
      rw [hh, Except.ok.injEq] at this
      rw [if_pos (show c.cols.ballistic_hop_moores = true from hm), ← this]
      rfl
    · rw [if_neg hm] at hh
      rw [if_neg (show ¬ c.cols.ballistic_hop_moores = true from hm), hh, div_self hc.hop.ne', one_mul]
  rw [k3]
  simp only [hf]
  unfold volcShare at k1
  have lp := hp.1
  have lv := hv.1
  by_cases hu : c.use_volc_dep_effcy = true
  · rw [if_pos (show c.cols.use_volc_dep_effcy = true from hu),
      if_neg (show c.cols.ballistic_hop_effcy ≠ 0 from hc.hop.ne')] at k1
    injection k1 with k1
    subst k1
    have hκ' : c.cols.volc_dep_effcy / c.cols.ballistic_hop_effcy = κ := by
      rw [hκ, if_pos hu]; rfl
    rw [hκ']
    refine List.ext_getElem (by simp [addArr, scaleArr, lp, lv]) fun i h1 h2 => ?_
    simp only [addArr, scaleArr, List.getElem_zipWith, List.getElem_map]
    ring
  · rw [if_neg (show ¬ c.cols.use_volc_dep_effcy = true from hu)] at k1
    injection k1 with k1
    subst k1
    have hκ' : κ = hop / c.ballistic_hop_effcy := by rw [hκ, if_neg hu]
    rw [hκ']
    refine List.ext_getElem (by simp [addArr, scaleArr, lp, lv]) fun i h1 h2 => ?_
    simp only [addArr, scaleArr, List.getElem_zipWith, List.getElem_map]
    ring

theorem addArr_some {a b : List ℝ} {i : Nat} {x y : ℝ} (ha : a[i]? = some x) (hb : b[i]? = some y) :
    (addArr a b)[i]? = some (x + y) := by
  unfold addArr
  rw [List.getElem?_zipWith, ha, hb]

theorem scaleArr_some {a : List ℝ} {i : Nat} {k x : ℝ} (ha : a[i]? = some x) : (scaleArr k a)[i]? = some (k * x) := by
  unfold scaleArr
  rw [List.getElem?_map, ha]
  rfl

/-- **C169** the ice a cold trap receives is a part fixed by the configuration and the files, with at least the ice of
micrometeorites in it, and what is drawn of craters and basins, which is never negative. -/
theorem C169_steady (c : RunCfg) (d : RunData) (hcom : c.is_comet = false) (hc : PhysicalCfg c) (hd : PhysicalData c d)
    (time : List ℝ) (hne : time ≠ []) (j : Nat) (name : String) (hj : c.coldtrap_names[j]? = some name) :
    ∃ (hop : ℝ) (base : List ℝ),
      (if c.ballistic_hop_moores then d.hop.get name = .ok hop else hop = c.ballistic_hop_effcy) ∧
      NNArr time.length base ∧
      (∀ (i : Nat) t, time[i]? = some t → ∃ b, base[i]? = some b ∧ hop * dust c t ≤ b * trapArea c * c.ice_density) ∧
      ∀ (σ : Type) (g : Gen σ), LawfulGen g → ∀ df : CraterTable,
        (∀ r ∈ df, r.rest.crater.isbasin = true → 0 < r.rest.crater.rad) → ∀ s : σ, ∃ rows s' ast s1 com,
          iceCols g c d df time s = .ok (rows, s') ∧ rows.length = time.length ∧
          (∀ row ∈ rows, row.length = c.coldtrap_names.length) ∧
          DrawnIce g c .asteroid df time s ast s1 ∧ DrawnIce g c .comet df time s1 com s' ∧
          ∀ (i : Nat) row, rows[i]? = some row → ∃ x b a m, row[j]? = some x ∧ base[i]? = some b ∧ ast[i]? = some a ∧
            com[i]? = some m ∧ 0 ≤ a ∧ 0 ≤ m ∧
            (x - b) * trapArea c * c.ice_density = hop * (a + if c.impact_ice_comets then m else 0) := by
  obtain ⟨hop, κ, hh, hh0, hκ, hcol⟩ := iceColsTime_column hc hd time.length j name hj
  obtain ⟨bA, nA, fA, dA⟩ := kind_steady hc hcom .asteroid time
  obtain ⟨bC, nC, fC, dC⟩ := kind_steady hc hcom .comet time
  obtain ⟨w, w1, w2⟩ := solarWindIce_ok hc hd time
  obtain ⟨v, v1, v2⟩ := volcanicIce_ok hc hd time
  have hk := perKg_pos hc
  have he := hc.hop
  have hφ : 0 ≤ hop / c.ballistic_hop_effcy := div_nonneg hh0 he.le
  obtain ⟨bP, hbP⟩ : ∃ t, t = addArr (if c.impact_ice_comets then addArr bA bC else bA) w := ⟨_, rfl⟩
  have nP : NNArr time.length bP := by
    rw [hbP]
    refine addArr_nn ?_ w2
    split
    · exact addArr_nn nA nC
    · exact nA
  have nS : ∀ {k : ℝ} {l : List ℝ}, 0 ≤ k → NNArr time.length l → NNArr time.length (scaleArr k l) := fun hk hl =>
    ⟨by simp [scaleArr, hl.1], by
      intro x hx
      obtain ⟨y, hy, rfl⟩ := List.mem_map.1 hx
      exact mul_nonneg hk (hl.2 y hy)⟩
  have nB : NNArr time.length (addArr (scaleArr (hop / c.ballistic_hop_effcy) bP) (scaleArr κ v)) :=
    addArr_nn (nS hφ nP) (nS hκ v2)
  have hA : 0 < trapArea c := by
    unfold trapArea
    rcases hc.area with ⟨e, h3⟩ | ⟨e, h3⟩
    · rw [if_pos e]; exact h3
    · rw [if_neg (by rw [e]; decide)]; exact h3
  have hD := hc.dens
  -- thickness and mass
  have conv : ∀ m : ℝ, hop / c.ballistic_hop_effcy * (perKg c * m) * trapArea c * c.ice_density = hop * m := by
    intro m
    have := perKg_mass hc m
    have e : hop / c.ballistic_hop_effcy * (perKg c * m) * trapArea c * c.ice_density =
        hop / c.ballistic_hop_effcy * (perKg c * m * trapArea c * c.ice_density) := by ring
    rw [e, this]
    field_simp
  refine ⟨hop, addArr (scaleArr (hop / c.ballistic_hop_effcy) bP) (scaleArr κ v), hh, nB, ?_, ?_⟩
  · intro i t hi
    have hil : i < time.length := (List.getElem?_eq_some_iff.1 hi).1
    have hl : i < (addArr (scaleArr (hop / c.ballistic_hop_effcy) bP) (scaleArr κ v)).length := by rw [nB.1]; exact hil
    refine ⟨_, List.getElem?_eq_getElem hl, ?_⟩
    obtain ⟨y, x, g1, g2, g3⟩ := addArr_get (List.getElem?_eq_getElem hl)
    have px : 0 ≤ x := (nS hκ v2).2 _ (List.mem_of_getElem? g2)
    unfold scaleArr at g1
    rw [List.getElem?_map] at g1
    obtain ⟨q, q1, q2⟩ := Option.map_eq_some_iff.1 g1
    have hq : perKg c * dust c t ≤ q := by
      rw [hbP] at q1
      obtain ⟨u, z, u1, u2, u3⟩ := addArr_get q1
      have pz := w2.2 _ (List.mem_of_getElem? u2)
      obtain ⟨a, a1, a2⟩ := fA i t hi
      obtain ⟨b, b1, b2⟩ := fC i t hi
      unfold dust
      by_cases hi : c.impact_ice_comets = true
      · rw [if_pos hi] at u1 ⊢
        obtain ⟨a', b', c1, c2, c3⟩ := addArr_get u1
        rw [a1] at c1
        rw [b1] at c2
        injection c1 with c1
        injection c2 with c2
        rw [u3, c3, ← c1, ← c2, mul_add]
        linarith
      · rw [if_neg hi] at u1 ⊢
        rw [a1] at u1
        injection u1 with u1
        rw [u3, ← u1, add_zero]
        linarith
    rw [g3, ← q2, ← conv]
    refine mul_le_mul_of_nonneg_right (mul_le_mul_of_nonneg_right ?_ hA.le) hD.le
    have := mul_le_mul_of_nonneg_left hq hφ
    linarith
  · intro σ g hg df hdf s
    obtain ⟨xA, s1, i1, i2, i3⟩ := dA σ g hg df hdf hne s
    obtain ⟨xC, s2, j1, j2, j3⟩ := dC σ g hg df hdf hne s1
    obtain ⟨xP, hxP⟩ : ∃ t, t = (if c.impact_ice_comets then addArr xA xC else xA) := ⟨_, rfl⟩
    have nX : NNArr time.length xP := by
      rw [hxP]
      split
      · exact addArr_nn i2 j2
      · exact i2
    have hpol : polarIce g c (readLuminosity d.lum) df time s =
        .ok (addArr bP (xP.map fun m => perKg c * m), s2) := by
      have j1' : impactIceComet g c df time s1 = .ok (addArr bC (xC.map fun m => perKg c * m), s2) := j1
      have i1' : impactIce g c df time s = .ok (addArr bA (xA.map fun m => perKg c * m), s1) := i1
      unfold polarIce
      simp only [bind, Except.bind, i1', j1', w1]
      have l1 := nA.1
      have l2 := nC.1
      have l3 := w2.1
      have l4 := i2.1
      have l5 := j2.1
      rw [hbP, hxP]
      congr 2
      by_cases hi : c.impact_ice_comets = true
      · simp only [if_pos hi]
        refine List.ext_getElem (by simp [addArr, l1, l2, l3, l4, l5]) fun i h1 h2 => ?_
        simp only [addArr, List.getElem_zipWith, List.getElem_map]
        ring
      · simp only [if_neg hi]
        refine List.ext_getElem (by simp [addArr, l1, l3, l4]) fun i h1 h2 => ?_
        simp only [addArr, List.getElem_zipWith, List.getElem_map]
        ring
    obtain ⟨rows, r1, r2, r3, r4⟩ := hcol (addArr bP (xP.map fun m => perKg c * m)) v (addArr_nn nP (nS hk.le nX)) v2
    refine ⟨rows, s2, xA, s1, xC, ?_, r2, r3, i3, j3, ?_⟩
    · unfold iceCols
      simp only [bind, Except.bind, hpol, v1, r1]
    · intro i row hrow
      have hil : i < time.length := by rw [← r2]; exact (List.getElem?_eq_some_iff.1 hrow).1
      have hjl : j < row.length := by
        rw [r3 row (List.mem_of_getElem? hrow)]
        exact (List.getElem?_eq_some_iff.1 hj).1
      have hjn : j < c.coldtrap_names.length := (List.getElem?_eq_some_iff.1 hj).1
      obtain ⟨cs1, cs2⟩ := column_spec hjn rows r3
      have hcl := cs2 i row hrow
      rw [r4, List.getElem?_eq_getElem hjl] at hcl
      have lA : i < xA.length := by rw [i2.1]; exact hil
      have lC : i < xC.length := by rw [j2.1]; exact hil
      have lP : i < bP.length := by rw [nP.1]; exact hil
      have lX : i < xP.length := by rw [nX.1]; exact hil
      have lv : i < v.length := by rw [v2.1]; exact hil
      refine ⟨row[j], hop / c.ballistic_hop_effcy * bP[i] + κ * v[i], xA[i], xC[i], List.getElem?_eq_getElem hjl, ?_,
        List.getElem?_eq_getElem lA, List.getElem?_eq_getElem lC, i2.2 _ (List.getElem_mem _), j2.2 _ (List.getElem_mem _),
        ?_⟩
      · exact addArr_some (scaleArr_some (List.getElem?_eq_getElem lP)) (scaleArr_some (List.getElem?_eq_getElem lv))
      · have hx : row[j] = hop / c.ballistic_hop_effcy * (bP[i] + perKg c * xP[i]) + κ * v[i] := by
          have hm : (xP.map fun m => perKg c * m)[i]? = some (perKg c * xP[i]) :=
            scaleArr_some (List.getElem?_eq_getElem lX)
          rw [addArr_some (scaleArr_some (addArr_some (List.getElem?_eq_getElem lP) hm))
            (scaleArr_some (List.getElem?_eq_getElem lv)), Option.some.injEq] at hcl
          exact hcl.symm
        have hxi : xP[i] = xA[i] + if c.impact_ice_comets then xC[i] else 0 := by
          subst hxP
          by_cases hi : c.impact_ice_comets = true
          · simp only [if_pos hi, addArr, List.getElem_zipWith]
          · simp only [if_neg hi, add_zero]
        rw [← hxi, ← conv, hx]
        ring

/-- The steady ice of Faustini in the default configuration at two times. -/
example := C169_steady (RunCfg.default 1) (shippedData [] sortDesc id id) rfl (default_physical 1)
  (default_data [] sortDesc id id sortDesc_spec 1) [4.25e9, 4.24e9] (by simp) 2 "Faustini" rfl

/-! ## The shipped configuration -/

theorem fluxRatio_ge {t a : ℝ} (n : Nat) (h : n + a ≤ 6.93 * (t / 10 ^ 9)) (ha : 0 ≤ a) :
    6.93 * 5.44e-14 * (2.7182818283 ^ n * (1 + a)) / 8.3801e-4 ≤ fluxRatio t := by
  unfold fluxRatio
  have h1 : (2.7182818283 : ℝ) ^ n * (1 + a) ≤ Real.exp (6.93 * (t / 10 ^ 9)) := by
    refine le_trans ?_ (Real.exp_le_exp.2 h)
    rw [Real.exp_add]
    refine mul_le_mul ?_ (by have := Real.add_one_le_exp a; linarith) (by positivity) (Real.exp_pos _).le
    rw [← mul_one (n : ℝ), Real.exp_nat_mul]
    exact pow_le_pow_left₀ (by norm_num) Real.exp_one_gt_d9.le n
  refine div_le_div₀ ?_ ?_ (by norm_num) (by norm_num)
  · have := Real.exp_pos (6.93 * (t / 10 ^ 9))
    positivity
  · norm_num at h1 ⊢
    linarith

theorem fluxRatio_le {t a : ℝ} (n : Nat) (h : 6.93 * (t / 10 ^ 9) ≤ n + 4 * a) (ha : a < 1) :
    fluxRatio t ≤ (6.93 * 5.44e-14 * (2.7182818286 ^ n * (1 / (1 - a)) ^ 4) + 8.38e-4) / 8.38e-4 := by
  unfold fluxRatio
  have e1 : Real.exp a ≤ 1 / (1 - a) := by
    have := Real.add_one_le_exp (-a)
    rw [Real.exp_neg] at this
    rw [le_div_iff₀ (by linarith)]
    have h2 := mul_le_mul_of_nonneg_left this (Real.exp_pos a).le
    rw [mul_inv_cancel₀ (Real.exp_pos a).ne'] at h2
    linarith
  have h1 : Real.exp (6.93 * (t / 10 ^ 9)) ≤ 2.7182818286 ^ n * (1 / (1 - a)) ^ 4 := by
    refine (Real.exp_le_exp.2 h).trans ?_
    rw [Real.exp_add]
    refine mul_le_mul ?_ ?_ (Real.exp_pos _).le (by positivity)
    · rw [← mul_one (n : ℝ), Real.exp_nat_mul]
      exact pow_le_pow_left₀ (Real.exp_pos _).le Real.exp_one_lt_d9.le n
    · have : (4 : ℝ) * a = ((4 : ℕ) : ℝ) * a := by norm_num
      rw [this, Real.exp_nat_mul]
      exact pow_le_pow_left₀ (Real.exp_pos _).le e1 4
  refine div_le_div₀ ?_ ?_ (by norm_num) (by norm_num)
  · have : 0 < 1 / (1 - a) := by apply div_pos <;> linarith
    positivity
  · norm_num at h1 ⊢
    linarith

theorem default_dust (seed : Int) (t : ℝ) : dust (RunCfg.default seed) t = 1.3e11 * fluxRatio t := by
  unfold dust micro water retained
  rw [if_pos (show (RunCfg.default seed).impact_ice_comets = true from rfl)]
  simp only [RunCfg.default, if_true]
  ring_nf

theorem default_gardened (seed : Int) (t : ℝ) :
    gardenedTo (RunCfg.default seed) t = 0.09 * (1 + max 0 (t - 3e9) / 1e9) := by
  unfold gardenedTo
  simp only [RunCfg.default]
  norm_num
  ring

/-- The cold traps to which most ice hops. -/
def favoured : List String := ["Faustini", "Amundsen", "Cabeus", "Cabeus B", "Idel'son L", "Wiechert J"]

theorem hop_favoured : ∀ p ∈ hopFile, (p.1 ∈ favoured → (62 / 1000 : ℚ) ≤ p.2) ∧
    (p.1 ≠ "Shackleton" → (169 / 10000 : ℚ) ≤ p.2) ∧ (p.1 = "Shackleton" → 0 ≤ p.2 ∧ p.2 ≤ 551 / 100000) := by
  decide +kernel

/-- **C169** micrometeorites alone bring more ice than gardening is deep: to most cold traps before 3.95 Gyr ago, to all
but Shackleton before 4.15 Gyr ago, to Shackleton never. -/
theorem C169_dust (name : String) (hop : ℚ) (hh : (name, hop) ∈ hopFile) (seed : Int) (t : ℝ) (ht : t ≤ 4.25e9) :
    (name ∈ favoured → 3.95e9 ≤ t →
      gardenedTo (RunCfg.default seed) t < hop * dust (RunCfg.default seed) t / (1.3e10 * 934)) ∧
    (name ≠ "Shackleton" → 4.15e9 ≤ t →
      gardenedTo (RunCfg.default seed) t < hop * dust (RunCfg.default seed) t / (1.3e10 * 934)) ∧
    (name = "Shackleton" →
      hop * dust (RunCfg.default seed) t / (1.3e10 * 934) < gardenedTo (RunCfg.default seed) t) := by
  obtain ⟨h1, h2, h3⟩ := hop_favoured _ hh
  rw [default_dust, default_gardened]
  have up : 0.09 * (1 + max 0 (t - 3e9) / 1e9) ≤ 0.2025 := by
    have : max 0 (t - 3e9) ≤ 1.25e9 := max_le (by norm_num) (by norm_num at ht ⊢; linarith)
    generalize max 0 (t - 3e9) = M at this
    norm_num at this ⊢
    linarith
  refine ⟨fun hn hl => ?_, fun hn hl => ?_, fun hn => ?_⟩
  · have b1 : ((62 / 1000 : ℚ) : ℝ) ≤ hop := by exact_mod_cast h1 hn
    have b2 := fluxRatio_ge (t := t) (a := 0.3735) 27 (by norm_num at hl ⊢; linarith) (by norm_num)
    have b3 : (320 : ℝ) ≤ fluxRatio t := le_trans (by norm_num) b2
    have b4 : ((62 / 1000 : ℚ) : ℝ) * 320 ≤ hop * fluxRatio t :=
      mul_le_mul b1 b3 (by norm_num) (le_trans (by norm_num) b1)
    norm_num at b4 up ⊢
    linarith
  · have b1 : ((169 / 10000 : ℚ) : ℝ) ≤ hop := by exact_mod_cast h2 hn
    have b2 := fluxRatio_ge (t := t) (a := 0.7595) 28 (by norm_num at hl ⊢; linarith) (by norm_num)
    have b3 : (1130 : ℝ) ≤ fluxRatio t := le_trans (by norm_num) b2
    have b4 : ((169 / 10000 : ℚ) : ℝ) * 1130 ≤ hop * fluxRatio t :=
      mul_le_mul b1 b3 (by norm_num) (le_trans (by norm_num) b1)
    norm_num at b4 up ⊢
    linarith
  · have b0 : (0 : ℝ) ≤ hop := by exact_mod_cast (h3 hn).1
    have b1 : (hop : ℝ) ≤ ((551 / 100000 : ℚ) : ℝ) := by exact_mod_cast (h3 hn).2
    rcases le_total t 3.9e9 with hl | hl
    · have b2 := fluxRatio_le (t := t) (a := 0.01) 27 (by norm_num at hl ⊢; linarith) (by norm_num)
      have b3 : fluxRatio t ≤ 300 := b2.trans (by norm_num)
      have b4 : hop * fluxRatio t ≤ ((551 / 100000 : ℚ) : ℝ) * 300 :=
        (mul_le_mul_of_nonneg_left b3 b0).trans (mul_le_mul_of_nonneg_right b1 (by norm_num))
      have lo : 0 ≤ max 0 (t - 3e9) := le_max_left _ _
      generalize max 0 (t - 3e9) = M at lo
      norm_num at b4 ⊢
      linarith
    · have b2 := fluxRatio_le (t := t) (a := 0.113125) 29 (by norm_num at ht ⊢; linarith) (by norm_num)
      have b3 : fluxRatio t ≤ 2870 := b2.trans (by norm_num)
      have b4 : hop * fluxRatio t ≤ ((551 / 100000 : ℚ) : ℝ) * 2870 :=
        (mul_le_mul_of_nonneg_left b3 b0).trans (mul_le_mul_of_nonneg_right b1 (by norm_num))
      have lo : 0.9e9 ≤ max 0 (t - 3e9) := le_max_of_le_right (by norm_num at hl ⊢; linarith)
      generalize max 0 (t - 3e9) = M at lo
      norm_num at b4 lo ⊢
      linarith

/-- Faustini, 4 Gyr ago. -/
example : gardenedTo (RunCfg.default 1) 4e9 < (0.062161999379547535 : ℚ) * dust (RunCfg.default 1) 4e9 / (1.3e10 * 934) :=
  (C169_dust "Faustini" 0.062161999379547535 (by decide +kernel) 1 4e9 (by norm_num)).1 (by decide) (by norm_num)

variable {σ : Type}

/-- **C169** runs of the shipped configuration, whatever the seed: before 3.95 Gyr ago, or 4.15 Gyr ago in the other cold
traps but Shackleton, every timestep brings more ice than its gardening is deep, and so keeps some unless later events
reach it. -/
theorem C169_default (nk : List (ℝ × ℝ)) (sortAges : CraterTable → CraterTable)
    (sortNk : List (ℝ × ℝ) → List (ℝ × ℝ)) (setOrder : List (List Char) → List (List Char)) (g : Gen σ)
    (hg : LawfulGen g) (hs : Spec.SortDesc sortAges) (seed : Int) :
    ∃ out df s time rows s',
      runMain g (RunCfg.default seed) (shippedData nk sortAges sortNk setOrder) = .ok out ∧
      craterBasinList g (RunCfg.default seed) (shippedData nk sortAges sortNk setOrder) (g.init seed) = .ok (df, s) ∧
      getTimeArray (4.25e9 : ℝ) 0 10e6 = .ok time ∧
      iceCols g (RunCfg.default seed) (shippedData nk sortAges sortNk setOrder) df time s = .ok (rows, s') ∧
      ∀ (j : Nat) name, (RunCfg.default seed).coldtrap_names[j]? = some name →
        ∃ (ice ej : List ℝ) (vs : List (Event ℝ)), out.ice.get name = .ok ice ∧ out.ej.get name = .ok ej ∧
          vs.length = time.length ∧ vs.map (·.ej) = ej ∧ ∀ past v later, vs = past ++ v :: later →
            ∃ t row x, time[past.length]? = some t ∧ rows[past.length]? = some row ∧ row[j]? = some v.ice ∧
              ice[past.length]? = some x ∧ 0 ≤ v.ej ∧ v.overturn = gardenedTo (RunCfg.default seed) t ∧
              (name ∈ favoured ∧ 3.95e9 ≤ t ∨ name ≠ "Shackleton" ∧ 4.15e9 ≤ t →
                v.overturn < v.ice ∧ v.ice - v.overturn - exposure v.ej later ≤ x ∧
                  (exposure v.ej later = 0 → 0 < x)) := by
  have hc := default_physical seed
  have hd := default_data nk sortAges sortNk setOrder hs seed
  have hr := default_runnable nk sortAges sortNk setOrder seed
  have hl := default_lunar nk sortAges sortNk setOrder seed
  obtain ⟨out, hrun⟩ := C72_returns g hg _ _ hc hd hr
  obtain ⟨df, s, time, delivered, s', dists, thick, bd, bf, h1, h2, h3, h4, h5, h6, h7⟩ :=
    C147_run g hg _ _ hc hd hr.nodup rfl out hrun
  obtain ⟨time', ht, htg⟩ := default_time seed
  have htt : time' = time := by
    rw [ht] at h2
    injection h2
  subst htt
  have htne : time' ≠ [] := by rw [htg]; simp [uniformGrid]
  refine ⟨out, df, s, time', delivered, s', hrun, h1, ht, h3, ?_⟩
  intro j name hj
  obtain ⟨ice, ej, vs, k1, k2, k3, k4, k5, k6, k7⟩ := h7 j name hj
  obtain ⟨ice', ej', table, q1, q2, q3, q4, q5, -⟩ := C85_run_tables_partial g hg _ _ hc hd hl hr.nodup out hrun name
    (List.mem_of_getElem? hj)
  rw [k2] at q2
  injection q2 with q2
  subst q2
  refine ⟨ice, ej, vs, k1, k2, k3, k4, ?_⟩
  intro past v later hvs
  have hvm : v ∈ vs := by rw [hvs]; simp
  have hej : 0 ≤ v.ej := q5 _ (by rw [← k4]; exact List.mem_map_of_mem hvm)
  have hget : vs[past.length]? = some v := by rw [hvs]; simp
  have hil : past.length < time'.length := by rw [← k3]; exact (List.getElem?_eq_some_iff.1 hget).1
  obtain ⟨t, hti⟩ : ∃ t, time'[past.length]? = some t := ⟨_, List.getElem?_eq_getElem hil⟩
  have hov : v.overturn = gardenedTo (RunCfg.default seed) t := by
    have := congrArg (·[past.length]?) k5
    simp only [List.getElem?_map, hget, Option.map_some] at this
    unfold overturnDepth at this
    rw [if_pos (show (RunCfg.default seed).overturn.impact_gardening_costello = true from rfl), List.getElem?_map, hti,
      Option.map_some, Option.some.injEq, overturnCostello_eq] at this
    exact this
  obtain ⟨hop, base, b1, b2, b3, b4⟩ := C169_steady _ _ rfl hc hd time' htne j name hj
  obtain ⟨rows, s2, ast, s1, com, r1, r2, r3, r4, r5, r6⟩ := b4 σ g hg df (craterBasinList_rad g hd _ _ _ h1) s
  rw [h3] at r1
  injection r1 with r1
  injection r1 with r1 r1'
  subst r1
  have hrl : past.length < delivered.length := by rw [r2]; exact hil
  obtain ⟨row, hrow⟩ : ∃ t, delivered[past.length]? = some t := ⟨_, List.getElem?_eq_getElem hrl⟩
  obtain ⟨y, b, a, m, m1, m2, m3, m4, m5, m6, m7⟩ := r6 _ row hrow
  have hvi := (k6 _ v hget).1
  rw [hrow, Option.bind_some, m1] at hvi
  injection hvi with hvi
  obtain ⟨x, x1, x2, x3, x4⟩ := k7 past v later hvs hej
  refine ⟨t, row, x, hti, hrow, by rw [m1, hvi], x1, hej, hov, ?_⟩
  intro hcase
  obtain ⟨b', c1, c2⟩ := b3 _ t hti
  rw [m2] at c1
  injection c1 with c1
  subst c1
  rw [if_pos (show (RunCfg.default seed).ballistic_hop_moores = true from rfl)] at b1
  obtain ⟨q, hq, hq'⟩ := List.mem_map.1 (PyDict.mem_of_get b1)
  have e1 : q.1 = name := congrArg Prod.fst hq'
  have e2 : (q.2 : ℝ) = hop := congrArg Prod.snd hq'
  have htle : t ≤ 4.25e9 := by
    rw [htg] at hti
    unfold uniformGrid at hti
    rw [List.getElem?_map] at hti
    obtain ⟨n, -, hn⟩ := Option.map_eq_some_iff.1 hti
    rw [← hn]
    have : (0 : ℝ) ≤ n * 10e6 := by positivity
    show (4.25e9 : ℝ) - n * 10e6 ≤ 4.25e9
    linarith
  obtain ⟨d1, d2, -⟩ := C169_dust name q.2 (by rw [← e1]; exact hq) seed t htle
  have hdust : gardenedTo (RunCfg.default seed) t < q.2 * dust (RunCfg.default seed) t / (1.3e10 * 934) := by
    rcases hcase with ⟨u1, u2⟩ | ⟨u1, u2⟩
    · exact d1 u1 u2
    · exact d2 u1 u2
  have hA : trapArea (RunCfg.default seed) = 1.3e10 := by
    unfold trapArea
    rw [if_pos (show (RunCfg.default seed).ice_species = "H2O" from rfl)]
    show (1.3e4 * 1e6 : ℝ) = _
    norm_num
  have hD : (RunCfg.default seed).ice_density = 934 := rfl
  rw [hA, hD] at c2 m7
  rw [e2] at hdust
  have hop0 : 0 ≤ hop := by
    obtain ⟨z, hz, hz0⟩ := hd.hops rfl name (List.mem_of_getElem? hj)
    rw [b1] at hz
    injection hz with hz
    rw [hz]
    exact hz0
  have hb : hop * dust (RunCfg.default seed) t / (1.3e10 * 934) ≤ b := by
    rw [div_le_iff₀ (by norm_num)]
    linarith
  have hby : b ≤ y := by
    have h0 : 0 ≤ hop * (a + if (RunCfg.default seed).impact_ice_comets = true then m else 0) := by
      refine mul_nonneg hop0 (add_nonneg m5 ?_)
      split
      · exact m6
      · exact le_rfl
    rw [← m7] at h0
    norm_num at h0
    linarith
  have hlt : v.overturn < v.ice := by rw [hov, ← hvi]; linarith
  have hx : v.ice - v.overturn - exposure v.ej later ≤ x := by
    refine le_trans ?_ x4
    have : max 0 (v.overturn - v.ej) ≤ v.overturn := by
      refine max_le ?_ (by linarith)
      rw [hov, default_gardened]
      have := le_max_left 0 (t - 3e9)
      positivity
    linarith
  exact ⟨hlt, hx, fun h0 => by rw [h0] at hx; linarith⟩

/-- A run whose draws are all the same. -/
example := C169_default [] sortDesc id id constGen constGen_lawful sortDesc_spec 1

end MoonPIES
