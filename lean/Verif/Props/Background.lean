import Verif.Props.Water
import Verif.Props.PerStep
import Verif.Props.MainPhysical
import Verif.Lemmas.IceByModule

/-!
# C166: what volcanism and the solar wind leave in runs of the shipped configuration
-/

namespace MoonPIES

open Spec

variable {σ : Type}

theorem lum_bounds : lumFile ≠ [] ∧ lumFile.Pairwise (fun a b => a.1 < b.1) ∧
    ∀ p ∈ lumFile, (677 / 1000 : ℚ) ≤ p.2 ∧ p.2 ≤ 1363 / 1000 := by decide +kernel

theorem hop_bound : ∀ p ∈ hopFile, p.2 ≤ (622 / 10000 : ℚ) := by decide +kernel

/-- Volcanism with the shipped configuration brings at most 2.25e12 kg a timestep, 0.0482 m with its share. -/
theorem default_volc_le (d : RunData) (seed : Int) (time v : List ℝ)
    (h : volcanicIce (RunCfg.default seed).volc_mode (RunCfg.default seed).ice (RunCfg.default seed).head
      (fun x => (roundHalfEven x : ℝ)) d.sortNk RunCfg.rtol (RunCfg.default seed).timestep time d.nk = .ok v) :
    ∀ x ∈ v, x ≤ perKg (RunCfg.default seed) * 2.25e12 := by
  have hp := default_physical seed
  rw [(C46_mode _ _ _ _ _ _ _ _ _).1 (show (RunCfg.default seed).volc_mode = "Head" from rfl)] at h
  have h' : thicknessOf (RunCfg.default seed) (volcanicHead (RunCfg.default seed).head time) = .ok v := h
  rw [thicknessOf_eq hp] at h'
  injection h' with h'
  intro x hx
  rw [← h'] at hx
  obtain ⟨m, hm, rfl⟩ := List.mem_map.1 hx
  refine mul_le_mul_of_nonneg_left ?_ (perKg_pos hp).le
  obtain ⟨i, hi⟩ := List.mem_iff_getElem?.1 hm
  obtain ⟨l1, l2⟩ := C45_steps (RunCfg.default seed).head time
  have hil : i < time.length := by rw [← l1]; exact (List.getElem?_eq_some_iff.1 hi).1
  obtain ⟨y, y1, y2, y3, y4⟩ := l2 i _ (List.getElem?_eq_getElem hil)
  rw [hi] at y1
  injection y1 with y1
  rw [y1]
  by_cases hL : InEpoch (RunCfg.default seed).head.volc_late time[i]
  · rw [y2 hL]
    simp only [headIcePerYear, RunCfg.head, RunCfg.default]
    norm_num
  · by_cases hE : InEpoch (RunCfg.default seed).head.volc_early time[i]
    · rw [y3 hL hE]
      simp only [headIcePerYear, RunCfg.head, RunCfg.default]
      norm_num
    · rw [y4 hL hE]
      norm_num

/-- The solar wind with the shipped files brings at most 8.6e11 kg a timestep. -/
theorem default_solar_le (nk : List (ℝ × ℝ)) (sortAges : CraterTable → CraterTable)
    (sortNk : List (ℝ × ℝ) → List (ℝ × ℝ)) (setOrder : List (List Char) → List (List Char)) (seed : Int)
    (time S : List ℝ) (h : solarWindIce (RunCfg.default seed).solar
      (readLuminosity (shippedData nk sortAges sortNk setOrder).lum) time = .ok S) :
    ∀ x ∈ S, x ≤ perKg (RunCfg.default seed) * 8.6e11 := by
  have hp := default_physical seed
  obtain ⟨b1, b2, b3⟩ := lum_bounds
  obtain ⟨m, m1, m2, m3⟩ := C47_faint_sun (RunCfg.default seed).solar
    (readLuminosity (shippedData nk sortAges sortNk setOrder).lum) time (2 / 1000) (677 / 1000) (1363 / 1000)
    (Or.inl ⟨show "Benna".toLower = "benna" by decide +kernel, by norm_num⟩) rfl
    (by simpa [shippedData, readLuminosity] using b1)
    (C47_reader_order _ (by
      simp only [shippedData]
      rw [List.pairwise_map]
      refine b2.imp fun {a b} hab => ?_
      simp only
      exact_mod_cast hab))
    (by
      intro p hp
      simp only [shippedData, readLuminosity, List.map_map] at hp
      obtain ⟨q, hq, rfl⟩ := List.mem_map.1 hp
      have := (b3 q hq).1
      simp only [Function.comp]
      have h2 : ((677 / 1000 : ℚ) : ℝ) ≤ (q.2 : ℝ) := by exact_mod_cast this
      norm_num at h2
      linarith)
    (by
      intro p hp
      simp only [shippedData, readLuminosity, List.map_map] at hp
      obtain ⟨q, hq, rfl⟩ := List.mem_map.1 hp
      have := (b3 q hq).2
      simp only [Function.comp]
      have h2 : (q.2 : ℝ) ≤ ((1363 / 1000 : ℚ) : ℝ) := by exact_mod_cast this
      norm_num at h2
      linarith)
  unfold solarWindIce at h
  rw [if_pos (show (RunCfg.default seed).solar.solar_wind_ice = true from rfl), m1] at h
  have h' : thicknessOf (RunCfg.default seed) m = .ok S := h
  rw [thicknessOf_eq hp] at h'
  injection h' with h'
  intro x hx
  rw [← h'] at hx
  obtain ⟨y, hy, rfl⟩ := List.mem_map.1 hx
  refine mul_le_mul_of_nonneg_left ?_ (perKg_pos hp).le
  obtain ⟨i, hi⟩ := List.mem_iff_getElem?.1 hy
  have hil : i < time.length := by rw [← m2]; exact (List.getElem?_eq_some_iff.1 hi).1
  obtain ⟨l, l1, l2, l3, -⟩ := m3 i _ (List.getElem?_eq_getElem hil)
  rw [hi] at l3
  injection l3 with l3
  rw [l3]
  have e : (RunCfg.default seed).solar.timestep = 10e6 := rfl
  rw [e]
  unfold yearSeconds
  norm_num
  linarith

theorem default_perKg (seed : Int) : perKg (RunCfg.default seed) = 0.054 / 934 / (1.3e4 * 1e6) := by
  unfold perKg
  rw [if_pos (show (RunCfg.default seed).ice_species = "H2O" from rfl)]
  rfl

/-- **C166** Runs of the shipped configuration with any hydration of impactors: volcanism and the solar wind bring less than
0.053 m a timestep, and gardening reaches 0.09 m or more, so that a layer keeps at most what impactors brought and the
ejecta of the timestep less 0.037 m. -/
theorem C166_layers (nk : List (ℝ × ℝ)) (sortAges : CraterTable → CraterTable)
    (sortNk : List (ℝ × ℝ) → List (ℝ × ℝ)) (setOrder : List (List Char) → List (List Char)) (g : Gen σ)
    (hg : LawfulGen g) (hs : Spec.SortDesc sortAges) (seed : Int) (p : ℝ × ℝ × ℝ) (hp : 0 ≤ p) :
    ∃ out df s time rows s',
      runMain g (withWater (RunCfg.default seed) p) (shippedData nk sortAges sortNk setOrder) = .ok out ∧
      craterBasinList g (withWater (RunCfg.default seed) p) (shippedData nk sortAges sortNk setOrder) (g.init seed) =
        .ok (df, s) ∧
      getTimeArray (4.25e9 : ℝ) 0 10e6 = .ok time ∧
      iceCols g (withWater (RunCfg.default seed) p) (shippedData nk sortAges sortNk setOrder) df time s = .ok (rows, s') ∧
      ∀ (j : Nat) name, (RunCfg.default seed).coldtrap_names[j]? = some name → ∃ u a b ice ej : List ℝ,
        out.ice.get name = .ok ice ∧ out.ej.get name = .ok ej ∧
        u.length = time.length ∧ a.length = time.length ∧ b.length = time.length ∧ ej.length = time.length ∧
        ice.length = time.length ∧ (∀ x ∈ u, 0 ≤ x ∧ x ≤ 0.053) ∧ (∀ x ∈ a, 0 ≤ x) ∧ (∀ x ∈ b, 0 ≤ x) ∧
        ∀ (i : Nat) row x y z e w, rows[i]? = some row → u[i]? = some x → a[i]? = some y → b[i]? = some z →
          ej[i]? = some e → ice[i]? = some w →
          row[j]? = some (x + p.1 * y + p.2.1 * z) ∧ 0 ≤ e ∧ 0 ≤ w ∧ w ≤ x + p.1 * y + p.2.1 * z ∧
            w ≤ max 0 (p.1 * y + p.2.1 * z + e - 0.037) := by
  have hc0 := default_physical seed
  have hd0 := default_data nk sortAges sortNk setOrder hs seed
  have hc : PhysicalCfg (withWater (RunCfg.default seed) p) := { hc0 with chw := hp.2.1, hw := hp.1 }
  have hd : PhysicalData (withWater (RunCfg.default seed) p) (shippedData nk sortAges sortNk setOrder) := { hd0 with }
  have hr : Runnable (withWater (RunCfg.default seed) p) (shippedData nk sortAges sortNk setOrder) :=
    { default_runnable nk sortAges sortNk setOrder seed with }
  have hl : Lunar (withWater (RunCfg.default seed) p) (shippedData nk sortAges sortNk setOrder) :=
    { default_lunar nk sortAges sortNk setOrder seed with }
  obtain ⟨out, hrun⟩ := C72_returns g hg _ _ hc hd hr
  obtain ⟨df, s, time, delivered, s', dists, thick, bd, bf, h1, h2, h3, h4, h5, h6, h7⟩ :=
    C147_run g hg _ _ hc hd hr.nodup rfl out hrun
  obtain ⟨time', ht, htl⟩ : ∃ time : List ℝ, getTimeArray (4.25e9 : ℝ) 0 10e6 = .ok time ∧ time.length = 425 :=
    ⟨_, C19_uniform_partial (4.25e9 : ℝ) 10e6 425 (by norm_num) (by norm_num) (by norm_num), by simp [uniformGrid]⟩
  have htt : time' = time := by
    have : (Except.ok time' : Except PyErr _) = .ok time := ht.symm.trans h2
    injection this
  subst htt
  have htne : time' ≠ [] := by intro h; simp [h] at htl
  refine ⟨out, df, s, time', delivered, s', hrun, h1, ht, h3, ?_⟩
  intro j name hj
  obtain ⟨ice, ej, vs, k1, k2, k3, k4, k5, k6, k7⟩ := h7 j name hj
  obtain ⟨ice', ej', table, q1, q2, q3, q4, q5, -⟩ := C85_run_tables_partial g hg _ _ hc hd hl hr.nodup out hrun name
    (List.mem_of_getElem? hj)
  rw [k2] at q2
  injection q2 with q2
  subst q2
  have hej : ∀ v ∈ vs, 0 ≤ v.ej := fun v hv => q5 _ (by rw [← k4]; exact List.mem_map_of_mem hv)
  obtain ⟨u, a, b, S, v, φ, κ, nu, na, nb, hu, hS, hv, hφ, hκ, haff⟩ := iceCols_water_from g hg (RunCfg.default seed)
    (shippedData nk sortAges sortNk setOrder) rfl hc0 hd0 df (craterBasinList_rad g hd _ _ _ h1) time' htne s j name hj
  obtain ⟨rows, s2, r1, r2, r3, r4⟩ := haff p hp
  rw [h3] at r1
  injection r1 with r1
  injection r1 with r1 _
  subst r1
  have hjn : j < (RunCfg.default seed).coldtrap_names.length := (List.getElem?_eq_some_iff.1 hj).1
  obtain ⟨cs1, cs2⟩ := column_spec hjn delivered r3
  have hub : ∀ x ∈ u, x ≤ 0.053 := by
    intro x hx
    obtain ⟨hop, g1, g2⟩ := hφ rfl
    have hopb : hop ≤ 0.0622 := by
      obtain ⟨q, hq, hq'⟩ := List.mem_map.1 (PyDict.mem_of_get g1)
      have h2 : (q.2 : ℝ) ≤ ((622 / 10000 : ℚ) : ℝ) := by exact_mod_cast hop_bound q hq
      have h3 : (q.2 : ℝ) = hop := congrArg Prod.snd hq'
      rw [h3] at h2
      norm_num at h2 ⊢
      linarith
    have hop0 : 0 ≤ hop := by
      obtain ⟨x, hx, hx0⟩ := hd0.hops rfl name (List.mem_of_getElem? hj)
      rw [g1] at hx
      injection hx with hx
      rw [hx]
      exact hx0
    obtain ⟨i, hi⟩ := List.mem_iff_getElem?.1 hx
    rw [hu, addArr, List.getElem?_zipWith] at hi
    have hκ' := hκ rfl
    cases hSi : (scaleArr φ S)[i]? with
    | none => simp [hSi] at hi
    | some y =>
      cases hvi : (scaleArr κ v)[i]? with
      | none => simp [hSi, hvi] at hi
      | some z =>
        simp only [hSi, hvi, Option.some.injEq] at hi
        obtain ⟨y', hy', ey⟩ := List.mem_map.1 (List.mem_of_getElem? hSi)
        obtain ⟨z', hz', ez⟩ := List.mem_map.1 (List.mem_of_getElem? hvi)
        have bS := default_solar_le nk sortAges sortNk setOrder seed time' S hS y' hy'
        have bv := default_volc_le (shippedData nk sortAges sortNk setOrder) seed time' v hv z' hz'
        rw [default_perKg] at bS bv
        have eh : (RunCfg.default seed).ballistic_hop_effcy = 0.054 := rfl
        have ed : (RunCfg.default seed).volc_dep_effcy = 0.26 := rfl
        rw [eh] at g2 hκ'
        rw [ed] at hκ'
        have hφ1 : φ ≤ 0.0622 / 0.054 := by
          rw [g2]
          exact div_le_div_of_nonneg_right hopb (by norm_num)
        have hφ0 : 0 ≤ φ := by
          rw [g2]
          exact div_nonneg hop0 (by norm_num)
        rw [← hi, ← ey, ← ez, hκ']
        have b1 : φ * y' ≤ 0.0622 / 0.054 * (0.054 / 934 / (1.3e4 * 1e6) * 8.6e11) :=
          (mul_le_mul_of_nonneg_left bS hφ0).trans (mul_le_mul_of_nonneg_right hφ1 (by norm_num))
        have b2 : 0.26 / 0.054 * z' ≤ 0.26 / 0.054 * (0.054 / 934 / (1.3e4 * 1e6) * 2.25e12) :=
          mul_le_mul_of_nonneg_left bv (by norm_num)
        refine (add_le_add b1 b2).trans ?_
        norm_num
  have hlay : ∀ (i : Nat) v, vs[i]? = some v → ∃ x, ice[i]? = some x ∧ 0 ≤ x ∧
      x ≤ v.ice - min v.ice (max 0 (v.overturn - v.ej)) := by
    intro i v hv
    obtain ⟨hi, hvi⟩ := List.getElem?_eq_some_iff.1 hv
    have hsplit : vs = vs.take i ++ v :: vs.drop (i + 1) := by
      rw [← hvi, List.cons_getElem_drop_succ, List.take_append_drop]
    obtain ⟨x, x1, x2, x3, -⟩ := k7 _ _ _ hsplit (hej v (List.mem_of_getElem? hv))
    rw [List.length_take, min_eq_left hi.le] at x1
    exact ⟨x, x1, x2, x3⟩
  have hicel : ice.length = time'.length := by
    obtain ⟨_, _, time2, _, _, _, _, _, _, _, t2, _, _, _, _, t7⟩ := C142_run g hg _ _ hc hd hr.nodup rfl out hrun
    obtain ⟨ice2, _, vs2, n1, _, n3, _, _, _, n7⟩ := t7 j name hj
    rw [h2] at t2
    injection t2 with t2
    rw [k1] at n1
    injection n1 with n1
    rw [t2, ← n3, n1, n7, List.length_reverse, List.length_map, layDown_length]
    exact Nat.zero_add _
  refine ⟨u, a, b, ice, ej, k1, k2, nu.1, na.1, nb.1, by rw [← k4, List.length_map, k3], hicel,
    fun x hx => ⟨nu.2 x hx, hub x hx⟩, na.2, nb.2, ?_⟩
  intro i row x y z e w hi hx hy hz he hw
  have hrow : row[j]? = some (x + p.1 * y + p.2.1 * z) := by
    rw [← cs2 i row hi, r4]
    simp [addArr, scaleArr, List.getElem?_zipWith, hx, hy, hz, add_assoc]
  rw [← k4, List.getElem?_map] at he
  cases hvs : vs[i]? with
  | none => rw [hvs] at he; cases he
  | some v =>
    rw [hvs] at he
    injection he with he
    obtain ⟨w', w1, w2, w3⟩ := hlay i v hvs
    rw [hw] at w1
    injection w1 with w1
    subst w1
    have hvi := (k6 i v hvs).1
    rw [hi, Option.bind_some, hrow] at hvi
    injection hvi with hvi
    have hov : (0.09 : ℝ) ≤ v.overturn := by
      have hm : v.overturn ∈ overturnDepth (withWater (RunCfg.default seed) p).overturn time' := by
        rw [← k5]
        exact List.mem_map_of_mem (List.mem_of_getElem? hvs)
      unfold overturnDepth at hm
      rw [if_pos (show (withWater (RunCfg.default seed) p).overturn.impact_gardening_costello = true from rfl)] at hm
      obtain ⟨t, -, ht⟩ := List.mem_map.1 hm
      rw [← ht]
      exact (C48_costello (withWater (RunCfg.default seed) p).overturn
        (show (0 : ℝ) ≤ 1e-9 by norm_num) (show (0 : ℝ) ≤ 0.09 by norm_num)).2.1 t
    have hx1 := hub x (List.mem_of_getElem? hx)
    have h0 : 0 ≤ v.ice := by
      rw [← hvi]
      have := nu.2 x (List.mem_of_getElem? hx)
      have := mul_nonneg hp.1 (na.2 y (List.mem_of_getElem? hy))
      have := mul_nonneg hp.2.1 (nb.2 z (List.mem_of_getElem? hz))
      simp only [Prod.fst_zero, Prod.snd_zero] at *
      linarith
    refine ⟨hrow, by rw [← he]; exact hej v (List.mem_of_getElem? hvs), w2, ?_, ?_⟩
    · rw [hvi]
      have : 0 ≤ min v.ice (max 0 (v.overturn - v.ej)) := le_min h0 (le_max_left _ _)
      linarith
    · refine w3.trans ?_
      rcases le_total v.ice (max 0 (v.overturn - v.ej)) with hm | hm
      · rw [min_eq_left hm, sub_self]
        exact le_max_left _ _
      · rw [min_eq_right hm]
        refine le_max_of_le_right ?_
        have := le_max_right 0 (v.overturn - v.ej)
        have he' : v.ej = e := he
        rw [← hvi]
        norm_num at hx1 hov ⊢
        linarith

theorem count_bound (k t : ℝ) (hk : 0 ≤ k) : ∀ ice ej : List ℝ, ice.length = ej.length →
    (∀ (i : Nat) e w, ej[i]? = some e → ice[i]? = some w → w ≤ k ∧ (e ≤ t → w = 0)) →
    ice.sum ≤ k * (ej.countP (fun e => decide (t < e)) : Nat)
  | [], [], _, _ => by simp
  | w :: ice, e :: ej, hl, h => by
    have ih := count_bound k t hk ice ej (by simpa using hl) fun i => h (i + 1)
    obtain ⟨h1, h2⟩ := h 0 e w rfl rfl
    rw [List.sum_cons, List.countP_cons]
    by_cases he : t < e
    · rw [if_pos (by simpa using he)]
      push_cast
      linarith
    · rw [if_neg (by simpa using he), h2 (not_lt.1 he), Nat.add_zero, zero_add]
      exact ih

/-- **C166** If impactors are dry, runs of the shipped configuration keep ice only at timesteps with more than 0.037 m of
ejecta, at most 0.053 m at each. -/
theorem C166_dry (nk : List (ℝ × ℝ)) (sortAges : CraterTable → CraterTable)
    (sortNk : List (ℝ × ℝ) → List (ℝ × ℝ)) (setOrder : List (List Char) → List (List Char)) (g : Gen σ)
    (hg : LawfulGen g) (hs : Spec.SortDesc sortAges) (seed : Int) :
    ∃ out, runMain g { RunCfg.default seed with hydrated_wt_pct := 0, comet_hydrated_wt_pct := 0 }
        (shippedData nk sortAges sortNk setOrder) = .ok out ∧
      ∀ name ∈ (RunCfg.default seed).coldtrap_names, ∃ ice ej : List ℝ, out.ice.get name = .ok ice ∧
        out.ej.get name = .ok ej ∧ ice.length = 425 ∧ ej.length = 425 ∧
        (∀ (i : Nat) e w, ej[i]? = some e → ice[i]? = some w → e ≤ 0.037 → w = 0) ∧
        ice.sum ≤ 0.053 * (ej.countP (fun e => decide (0.037 < e)) : Nat) := by
  obtain ⟨q, hq⟩ : ∃ q : ℝ, q = (RunCfg.default seed).ice_erosion_rate := ⟨_, rfl⟩
  have hq0 : 0 ≤ q := by
    rw [hq]
    simp only [RunCfg.default]
    norm_num
  obtain ⟨out, df, s, time, rows, s', h1, h2, h3, h4, h5⟩ := C166_layers nk sortAges sortNk setOrder g hg hs seed
    (0, 0, q) ⟨le_rfl, le_rfl, hq0⟩
  have ew : withWater (RunCfg.default seed) (0, 0, q) =
      { RunCfg.default seed with hydrated_wt_pct := 0, comet_hydrated_wt_pct := 0 } := by rw [hq]; rfl
  rw [ew] at h1
  refine ⟨out, h1, fun name hn => ?_⟩
  obtain ⟨j, hj⟩ := List.mem_iff_getElem?.1 hn
  obtain ⟨u, a, b, ice, ej, k1, k2, lu, la, lb, lej, lice, hu, ha, hb, key⟩ := h5 j name hj
  have htl : time.length = 425 := by
    have := C19_uniform_partial (4.25e9 : ℝ) 10e6 425 (by norm_num) (by norm_num) (by norm_num)
    rw [this] at h3
    injection h3 with h3
    rw [← h3]
    simp [uniformGrid]
  have hrows : rows.length = time.length := by
    have hc : PhysicalCfg (withWater (RunCfg.default seed) (0, 0, q)) :=
      { default_physical seed with chw := le_rfl, hw := le_rfl }
    have hd : PhysicalData (withWater (RunCfg.default seed) (0, 0, q)) (shippedData nk sortAges sortNk setOrder) :=
      { default_data nk sortAges sortNk setOrder hs seed with }
    obtain ⟨r, t, i1, i2, -⟩ := iceCols_ok g hg hc hd df (craterBasinList_rad g hd _ _ _ h2) time
      (by intro h; simp [h] at htl) s
    rw [h4] at i1
    injection i1 with i1
    injection i1 with i1 _
    rw [i1, i2]
  have all : ∀ (i : Nat) e w, ej[i]? = some e → ice[i]? = some w → w ≤ 0.053 ∧ (e ≤ 0.037 → w = 0) := by
    intro i e w he hw
    have hi : i < time.length := by rw [← lej]; exact (List.getElem?_eq_some_iff.1 he).1
    obtain ⟨-, -, w0, w1, w2⟩ := key i _ _ _ _ e w (List.getElem?_eq_getElem (by omega)) (List.getElem?_eq_getElem (by omega))
      (List.getElem?_eq_getElem (by omega)) (List.getElem?_eq_getElem (by omega)) he hw
    simp only [zero_mul, add_zero, zero_add] at w1 w2
    refine ⟨w1.trans (hu _ (List.getElem_mem _)).2, fun h => le_antisymm (w2.trans ?_) w0⟩
    exact max_le le_rfl (by linarith)
  exact ⟨ice, ej, k1, k2, by rw [lice, htl], by rw [lej, htl], fun i e w he hw => (all i e w he hw).2,
    count_bound _ _ (by norm_num) ice ej (by rw [lice, lej]) all⟩

/-- A seed and an order of the tables for which both theorems hold. -/
example (g : Gen σ) (hg : LawfulGen g) (sortAges : CraterTable → CraterTable) (hs : Spec.SortDesc sortAges) :
    ∃ out ice ej, runMain g { RunCfg.default 1958 with hydrated_wt_pct := 0, comet_hydrated_wt_pct := 0 }
        (shippedData [] sortAges id id) = .ok out ∧ out.ice.get "Faustini" = .ok ice ∧
      out.ej.get "Faustini" = .ok ej ∧ ice.sum ≤ 0.053 * (ej.countP (fun e => decide (0.037 < e)) : Nat) := by
  obtain ⟨out, h1, h2⟩ := C166_dry [] sortAges id id g hg hs 1958
  obtain ⟨ice, ej, k1, k2, -, -, -, k⟩ := h2 "Faustini" (by simp [RunCfg.default])
  exact ⟨out, ice, ej, h1, k1, k2, k⟩

end MoonPIES
