import Verif.Spec.Gentler
import Verif.Lemmas.Supply
import Verif.Props.Run
import Verif.Props.MainPhysical

/-!
# Comparing the stages of two runs
-/

namespace MoonPIES

open Spec

variable {σ : Type}

/-- Entrywise order of two arrays. -/
abbrev ArrLE (a b : List ℝ) : Prop := List.Forall₂ (· ≤ ·) a b

theorem arrLE_refl (a : List ℝ) : ArrLE a a := by
  induction a with
  | nil => exact .nil
  | cons x l ih => exact .cons le_rfl ih

theorem addArr_le {a b c d : List ℝ} (h : ArrLE a b) (h' : ArrLE c d) :
    ArrLE (addArr a c) (addArr b d) := by
  unfold addArr
  induction h generalizing c d with
  | nil => exact .nil
  | cons hx _ ih =>
    cases h' with
    | nil => exact .nil
    | cons hy h' => exact .cons (add_le_add hx hy) (ih h')

theorem map_le {α : Type} {f g : α → ℝ} : ∀ {l : List α}, (∀ x ∈ l, f x ≤ g x) →
    ArrLE (l.map f) (l.map g)
  | [], _ => .nil
  | x :: l, h => .cons (h x (by simp)) (map_le (fun y hy => h y (by simp [hy])))

theorem zeros_le {n : Nat} {time w : List ℝ} (hl : time.length = n) (h : NNArr n w) :
    ArrLE (time.map (fun _ => 0)) w := by
  unfold ArrLE
  rw [forall₂_iff_getElem?]
  refine ⟨by simp [h.1, hl], fun i x y hx hy => ?_⟩
  rw [List.getElem?_map] at hx
  cases ht : time[i]? with
  | none => rw [ht] at hx; cases hx
  | some t => rw [ht] at hx; cases hx; exact h.2 y (List.mem_of_getElem? hy)

theorem scaleArr_le {n : Nat} {u : List ℝ} (hu : NNArr n u) {k k' : ℝ} (h : k ≤ k') :
    ArrLE (scaleArr k u) (scaleArr k' u) := by
  apply map_le
  intro x hx
  exact mul_le_mul_of_nonneg_right h (hu.2 x hx)

/-- What two configurations need for comparing their impact ice. -/
structure SupplyLE (c c' : RunCfg) : Prop where
  unit : c'.unit = c.unit
  w : wFactor c ≤ wFactor c'
  mw : c.mm_mass_rate * wFactor c ≤ c'.mm_mass_rate * wFactor c'
  h : c.hydrated_wt_pct ≤ c'.hydrated_wt_pct

theorem unit_physical {c : RunCfg} (hc : PhysicalCfg c) : PhysicalCfg c.unit :=
  { hc with mm := zero_le_one, chw := zero_le_one, cmr := zero_le_one, hw := zero_le_one
            imr := zero_le_one }

theorem thicknessOf_unit (c : RunCfg) (l : List ℝ) : thicknessOf c.unit l = thicknessOf c l := rfl

theorem nonBasin_le (g : Gen σ) (hg : LawfulGen g) {c c' : RunCfg} (h : SupplyLE c c')
    (hc : PhysicalCfg c) (time : List ℝ) (s : σ) : ∃ a b s₁, nonBasinIce g c time s = .ok (a, s₁) ∧
      nonBasinIce g c' time s = .ok (b, s₁) ∧ ArrLE a b := by
  have hu := unit_physical hc
  have hth : ∀ l, thicknessOf c' l = thicknessOf c l := by
    intro l; rw [← thicknessOf_unit, h.unit, thicknessOf_unit]
  have hfl := physical_flux hu
  have key : ∀ {n : Nat} {u : List ℝ} {k k' : ℝ}, NNArr n u → k ≤ k' → ∃ x y,
      thicknessOf c (scaleArr k u) = .ok x ∧ thicknessOf c (scaleArr k' u) = .ok y ∧ ArrLE x y := by
    intro n u k k' hn hk
    obtain ⟨t, t1, t2⟩ := thicknessOf_nn hc hn
    refine ⟨scaleArr k t, scaleArr k' t, ?_, ?_, scaleArr_le t2 hk⟩
    · rw [thickness_scale, t1]; rfl
    · rw [thickness_scale, t1]; rfl
  have n1 : NNArr time.length (iceMicrometeorites c.unit.flux time) :=
    followsFlux_nn (C42_micrometeorites c.unit.flux time) (C42_micrometeorites_nonneg c.unit.flux hfl)
  obtain ⟨mind, maxd, step, slope, er, h0, hs, hst, -⟩ := hu.regB
  obtain ⟨today, t0, ht⟩ := C42_small_impactors c.unit.flux hfl mind maxd step slope er h0 hs hst
  obtain ⟨m2, b2, f2⟩ := ht time
  obtain ⟨mind, maxd, step, slope, er, h0, hs, hst, hN, hle⟩ := hu.regC
  obtain ⟨today', t0', ht'⟩ := C42_small_craters c.unit.flux hfl mind maxd step slope er
    h0 hs hst hN hu.mean hu.rho hu.trho hu.grav hle hu.s2c.2
  obtain ⟨m3, b3, f3⟩ := ht' time
  obtain ⟨m4, s4, b4, l4, k4⟩ := iceStochastic_ok g hg hu time "d" (by simp) s
  obtain ⟨m5, s5, b5, l5, k5⟩ := iceStochastic_ok g hg hu time "e" (by simp) s4
  obtain ⟨x1, y1, p1, q1, r1⟩ := key n1 h.mw
  obtain ⟨x2, y2, p2, q2, r2⟩ := key (followsFlux_nn f2 t0) h.w
  obtain ⟨x3, y3, p3, q3, r3⟩ := key (followsFlux_nn f3 t0') h.w
  obtain ⟨x4, y4, p4, q4, r4⟩ := key (show NNArr time.length m4 from ⟨l4, k4⟩) h.h
  obtain ⟨x5, y5, p5, q5, r5⟩ := key (show NNArr time.length m5 from ⟨l5, k5⟩) h.h
  refine ⟨_, _, s5, ?_, ?_, addArr_le (addArr_le (addArr_le (addArr_le (addArr_le
    (arrLE_refl (time.map (fun _ => (0 : ℝ)))) r1) r2) r3) r4) r5⟩
  · unfold nonBasinIce
    rw [micro_unit, smallImpactor_unit, smallCrater_unit, iceStochastic_unit, b2, b3, b4]
    simp only [bind, Except.bind, Except.map, scaleRes, p1, p2, p3, p4]
    rw [iceStochastic_unit, b5]
    simp only [scaleRes, p5]
  · unfold nonBasinIce
    rw [micro_unit, smallImpactor_unit, smallCrater_unit, iceStochastic_unit, h.unit, b2, b3, b4]
    simp only [bind, Except.bind, Except.map, scaleRes, hth, q1, q2, q3, q4]
    rw [iceStochastic_unit, h.unit, b5]
    simp only [scaleRes, q5]

/-- Impact ice: the same draws, and at least as much ice. -/
theorem impactIce_le (g : Gen σ) (hg : LawfulGen g) {c c' : RunCfg} (h : SupplyLE c c')
    (hc : PhysicalCfg c) (df : CraterTable)
    (hdf : ∀ r ∈ df, r.rest.crater.isbasin = true → 0 < r.rest.crater.rad) (time : List ℝ)
    (hne : time ≠ []) (s : σ) : ∃ a b s₁, impactIce g c df time s = .ok (a, s₁) ∧
      impactIce g c' df time s = .ok (b, s₁) ∧ ArrLE a b := by
  have hth : ∀ l, thicknessOf c' l = thicknessOf c l := by
    intro l; rw [← thicknessOf_unit, h.unit, thicknessOf_unit]
  have hb : c'.impact_ice_basins = c.impact_ice_basins := by
    have := congrArg RunCfg.impact_ice_basins h.unit
    exact this
  obtain ⟨a, b, s1, e1, e2, e3⟩ := nonBasin_le g hg h hc time s
  obtain ⟨m, s2, f1, f2⟩ := iceBasins_ok g hg (unit_physical hc) df hdf time hne s1
  obtain ⟨t, t1, t2⟩ := thicknessOf_nn hc f2
  refine ⟨if c.impact_ice_basins then addArr a (scaleArr c.hydrated_wt_pct t) else a,
    if c.impact_ice_basins then addArr b (scaleArr c'.hydrated_wt_pct t) else b, s2, ?_, ?_, ?_⟩
  · unfold impactIce
    simp only [bind, Except.bind, e1]
    rw [iceBasins_unit, f1]
    simp only [scaleRes, thickness_scale, t1, Except.map]
  · unfold impactIce
    simp only [bind, Except.bind, e2]
    rw [iceBasins_unit, h.unit, f1]
    simp only [scaleRes, hth, thickness_scale, t1, Except.map, hb]
  · split
    · exact addArr_le e3 (scaleArr_le t2 h.h)
    · exact e3

theorem gentler_supply {c c' : RunCfg} (h : Gentler c c') (hc : PhysicalCfg c) :
    SupplyLE c c' ∧ SupplyLE c.comet c'.comet := by
  have w1 := mul_le_mul h.cometWater h.cometRetained hc.cmr (hc.chw.trans h.cometWater)
  have w2 := mul_le_mul h.water h.retained hc.imr (hc.hw.trans h.water)
  have n1 := mul_nonneg hc.chw hc.cmr
  have n2 := mul_nonneg hc.hw hc.imr
  have m0 := hc.mm.trans h.mm
  have hi : c'.is_comet = c.is_comet := by rw [h.same]; rfl
  have hu : c'.unit = c.unit := by rw [h.same]; rfl
  have hw : wFactor c ≤ wFactor c' ∧ 0 ≤ wFactor c := by
    unfold wFactor
    rw [hi]
    split
    · exact ⟨w1, n1⟩
    · exact ⟨w2, n2⟩
  have hw' : wFactor c.comet ≤ wFactor c'.comet ∧ 0 ≤ wFactor c.comet := ⟨w1, n1⟩
  exact ⟨⟨hu, hw.1, mul_le_mul h.mm hw.1 hw.2 m0, h.water⟩,
    ⟨by rw [h.same]; rfl, hw'.1, mul_le_mul h.mm hw'.1 hw'.2 m0, h.cometWater⟩⟩

theorem gentler_physical {c c' : RunCfg} (h : Gentler c c') (hc : PhysicalCfg c) :
    PhysicalCfg c' := by
  have h1 := hc.mm.trans h.mm
  have h2 := hc.chw.trans h.cometWater
  have h3 := hc.cmr.trans h.cometRetained
  have h4 := hc.hw.trans h.water
  have h5 := hc.imr.trans h.retained
  rw [h.same]
  cases hc
  constructor <;> assumption

/-- Polar ice: the same draws, and at least as much ice. -/
theorem polarIce_le (g : Gen σ) (hg : LawfulGen g) {c c' : RunCfg} {d : RunData}
    (h : Gentler c c') (hc : PhysicalCfg c) (hd' : PhysicalData c' d) (df : CraterTable)
    (hdf : ∀ r ∈ df, r.rest.crater.isbasin = true → 0 < r.rest.crater.rad) (time : List ℝ)
    (hne : time ≠ []) (s s₁ s₂ : σ) (a b : List ℝ)
    (e₁ : polarIce g c (readLuminosity d.lum) df time s = .ok (a, s₁))
    (e₂ : polarIce g c' (readLuminosity d.lum) df time s = .ok (b, s₂)) : ArrLE a b ∧ s₁ = s₂ := by
  have hc' := gentler_physical h hc
  obtain ⟨k1, k2⟩ := gentler_supply h hc
  have hcom : c'.impact_ice_comets = c.impact_ice_comets := by rw [h.same]; rfl
  unfold polarIce impactIceComet at e₁ e₂
  obtain ⟨⟨p, t₁⟩, p1, e₁⟩ := bind_ok_inv e₁
  obtain ⟨⟨q, t₂⟩, p2, e₁⟩ := bind_ok_inv e₁
  obtain ⟨w, p3, e₁⟩ := bind_ok_inv e₁
  obtain ⟨⟨p', t₁'⟩, q1, e₂⟩ := bind_ok_inv e₂
  obtain ⟨⟨q', t₂'⟩, q2, e₂⟩ := bind_ok_inv e₂
  obtain ⟨w', q3, e₂⟩ := bind_ok_inv e₂
  obtain ⟨x₁, x₂, x₃, u1, u2, u3⟩ := impactIce_le g hg k1 hc df hdf time hne s
  rw [p1] at u1; cases u1
  rw [q1] at u2; cases u2
  obtain ⟨x₁, x₂, x₃, u4, u5, u6⟩ := impactIce_le g hg k2 (physical_comet hc) df hdf time hne t₁
  rw [p2] at u4; cases u4
  rw [q2] at u5; cases u5
  injection e₁ with e₁
  injection e₂ with e₂
  injection e₁ with e₁ f₁
  injection e₂ with e₂ f₂
  refine ⟨?_, by rw [← f₁, ← f₂]⟩
  rw [← e₁, ← e₂, hcom]
  refine addArr_le ?_ ?_
  · split
    · exact addArr_le u3 u6
    · exact u3
  by_cases hs : c.solar_wind_ice = true
  · have : c'.solar = c.solar := by
      have hs' := h.solar hs
      have e : c'.solar = { c.solar with solar_wind_ice := c'.solar_wind_ice } := by
        rw [h.same]; rfl
      rw [e, hs', ← hs]; rfl
    rw [this, p3] at q3
    cases q3
    exact arrLE_refl _
  · unfold solarWindIce at p3
    rw [if_neg (show ¬ c.solar.solar_wind_ice = true from hs)] at p3
    cases p3
    obtain ⟨w'', k1, k2⟩ := solarWindIce_ok hc' hd' time
    rw [k1] at q3
    cases q3
    exact zeros_le rfl k2

theorem iceThickness_le {c : RunCfg} (hc : PhysicalCfg c) {x y a b : ℝ} (h : x ≤ y)
    (ha : iceThickness c.ice x = .ok a) (hb : iceThickness c.ice y = .ok b) : a ≤ b := by
  have hd := hc.dens
  have hh := hc.hop
  have key : ∀ ar : ℝ, 0 < ar → x * c.ice.ballistic_hop_effcy / c.ice.ice_density / ar ≤
      y * c.ice.ballistic_hop_effcy / c.ice.ice_density / ar := by
    intro ar har
    apply div_le_div_of_nonneg_right _ har.le
    apply div_le_div_of_nonneg_right _ (show 0 ≤ c.ice.ice_density from hd.le)
    exact mul_le_mul_of_nonneg_right h hh.le
  unfold iceThickness at ha hb
  rcases hc.area with ⟨h1, h2⟩ | ⟨h1, h2⟩
  · rw [if_pos (show c.ice.ice_species = "H2O" from h1)] at ha hb
    cases ha; cases hb
    exact key _ h2
  · have h1' : ¬ c.ice.ice_species = "H2O" := by
      rw [show c.ice.ice_species = c.ice_species from rfl, h1]; decide
    rw [if_neg h1', if_pos (show c.ice.ice_species = "CO2" from h1)] at ha hb
    cases ha; cases hb
    exact key _ h2

theorem thickness_mapM_le {c : RunCfg} (hc : PhysicalCfg c) {m m' a b : List ℝ} (h : ArrLE m m')
    (ha : m.mapM (fun x => iceThickness c.ice x) = .ok a)
    (hb : m'.mapM (fun x => iceThickness c.ice x) = .ok b) : ArrLE a b := by
  obtain ⟨l1, i1⟩ := mapM_ok_inv _ _ _ ha
  obtain ⟨l2, i2⟩ := mapM_ok_inv _ _ _ hb
  unfold ArrLE at h ⊢
  rw [forall₂_iff_getElem?] at h ⊢
  refine ⟨by rw [l1, l2, h.1], fun i x y hx hy => ?_⟩
  have hil := (List.getElem?_eq_some_iff.1 hx).1
  obtain ⟨u, hu⟩ : ∃ u, m[i]? = some u := ⟨_, List.getElem?_eq_getElem (by omega)⟩
  obtain ⟨v, hv⟩ : ∃ v, m'[i]? = some v := ⟨_, List.getElem?_eq_getElem (by omega)⟩
  obtain ⟨x', k1, k2⟩ := i1 i u hu
  obtain ⟨y', k3, k4⟩ := i2 i v hv
  rw [hx] at k1; cases k1
  rw [hy] at k3; cases k3
  exact iceThickness_le hc (h.2 i u v hu hv) k2 k4

/-- Volcanic ice. -/
theorem volcanic_le {c c' : RunCfg} {d : RunData} (h : Gentler c c') (hc : PhysicalCfg c)
    (hd : PhysicalData c d) (time a b : List ℝ)
    (e₁ : volcanicIce c.volc_mode c.ice c.head (fun x => (roundHalfEven x : ℝ)) d.sortNk
      RunCfg.rtol c.timestep time d.nk = .ok a)
    (e₂ : volcanicIce c'.volc_mode c'.ice c'.head (fun x => (roundHalfEven x : ℝ)) d.sortNk
      RunCfg.rtol c'.timestep time d.nk = .ok b) : ArrLE a b := by
  have hm : c'.volc_mode = c.volc_mode := by rw [h.same]; rfl
  have hi : c'.ice = c.ice := by rw [h.same]; rfl
  have hts : c'.timestep = c.timestep := by rw [h.same]; rfl
  have hh : c'.head = { c.head with volc_total_vol := c'.volc_total_vol,
                                    volc_ice_ppm := c'.volc_ice_ppm } := by rw [h.same]; rfl
  obtain ⟨v0, v1, v2, v3, v4, v5, -⟩ := hd.volc
  rw [hm, hi, hts, (C46_mode _ _ _ _ _ _ _ _ _).1 v0] at e₂
  rw [(C46_mode _ _ _ _ _ _ _ _ _).1 v0] at e₁
  refine thickness_mapM_le hc ?_ e₁ e₂
  rw [hh]
  unfold volcanicHead
  simp only
  have hvol := h.vol
  have hppm := h.ppm
  have ht := hc.ts
  have key : c.head.volc_total_vol * c.head.volc_magma_density * c.head.volc_ice_ppm * (1 / 1000000) ≤
      c'.volc_total_vol * c.head.volc_magma_density * c'.volc_ice_ppm * (1 / 1000000) := by
    apply mul_le_mul_of_nonneg_right _ (by norm_num)
    apply mul_le_mul _ hppm v3
    · exact mul_nonneg (v1.trans hvol) v2
    · exact mul_le_mul_of_nonneg_right hvol v2
  apply map_le
  intro t _
  split
  · exact mul_le_mul_of_nonneg_right (mul_le_mul_of_nonneg_right key v5) ht.le
  · split
    · exact mul_le_mul_of_nonneg_right (mul_le_mul_of_nonneg_right key v4) ht.le
    · exact le_rfl

theorem scale_le {k k' : ℝ} {v v' : List ℝ} (hv : ArrLE v v') (h0 : ∀ x ∈ v', 0 ≤ x) (hk : 0 ≤ k)
    (hkk : k ≤ k') : ArrLE (v.map (fun x => x * k)) (v'.map (fun x => x * k')) := by
  induction hv with
  | nil => exact .nil
  | @cons x y l l' hxy _ ih =>
    exact .cons (mul_le_mul hxy hkk hk (h0 y (by simp))) (ih (fun z hz => h0 z (by simp [hz])))

theorem addRows_le {m m' : List (List ℝ)} {b b' : List ℝ} (h : List.Forall₂ ArrLE m m')
    (hb : ArrLE b b') : List.Forall₂ ArrLE
      (List.zipWith (fun row v => row.map (fun p => p + v)) m b)
      (List.zipWith (fun row v => row.map (fun p => p + v)) m' b') := by
  induction h generalizing b b' with
  | nil => exact .nil
  | @cons r r' _ _ hr _ ih =>
    cases hb with
    | nil => exact .nil
    | @cons x y _ _ hxy hb =>
      refine .cons ?_ (ih hb)
      exact List.forall₂_map_left_iff.2 (List.forall₂_map_right_iff.2
        (hr.imp (fun u w huw => add_le_add huw hxy)))

/-- One row per time, one value per cold trap. -/
theorem iceColsTime_le {c c' : RunCfg} {d : RunData} (h : Gentler c c') (hc : PhysicalCfg c)
    (hd : PhysicalData c d) {p p' v v' : List ℝ} {m m' : List (List ℝ)} (hp : ArrLE p p')
    (hv : ArrLE v v') (hv0 : ∀ x ∈ v', 0 ≤ x) (e₁ : iceColsTime c.cols d.hop p v = .ok m)
    (e₂ : iceColsTime c'.cols d.hop p' v' = .ok m') : List.Forall₂ ArrLE m m' := by
  have hcols : c'.cols = { c.cols with volc_dep_effcy := c'.volc_dep_effcy } := by
    rw [h.same]; rfl
  have hhop := hc.hop
  have hdep0 := hd.volc.2.2.2.2.2.2
  have hdep := h.dep
  rw [hcols] at e₂
  unfold iceColsTime at e₁ e₂
  obtain ⟨⟨a, b⟩, a1, e₁⟩ := bind_ok_inv e₁
  obtain ⟨rows, a2, e₁⟩ := bind_ok_inv e₁
  obtain ⟨⟨a', b'⟩, b1, e₂⟩ := bind_ok_inv e₂
  obtain ⟨rows', b2, e₂⟩ := bind_ok_inv e₂
  injection e₁ with e₁
  injection e₂ with e₂
  have hshare : ArrLE a a' ∧ ArrLE b b' := by
    unfold volcShare at a1 b1
    simp only at b1
    by_cases hu : c.cols.use_volc_dep_effcy = true
    · rw [if_pos hu, if_neg (show ¬ c.cols.ballistic_hop_effcy = 0 from hhop.ne')] at a1 b1
      cases a1; cases b1
      exact ⟨hp, scale_le hv hv0 (div_nonneg hdep0 hhop.le)
        (div_le_div_of_nonneg_right hdep hhop.le)⟩
    · rw [if_neg hu] at a1 b1
      cases a1; cases b1
      exact ⟨addArr_le hp hv, scale_le hv hv0 le_rfl le_rfl⟩
  have hrows : List.Forall₂ ArrLE rows rows' := by
    unfold trapRows at a2 b2
    simp only at b2
    by_cases hm : c.cols.ballistic_hop_moores = true
    · rw [if_pos hm] at a2 b2
      obtain ⟨bh, k1, a2⟩ := bind_ok_inv a2
      obtain ⟨bh', k2, b2⟩ := bind_ok_inv b2
      rw [k1] at k2
      cases k2
      injection a2 with a2
      injection b2 with b2
      subst a2
      subst b2
      obtain ⟨l1, i1⟩ := mapM_ok_inv _ _ _ k1
      have hb0 : ∀ x ∈ bh, 0 ≤ x := by
        intro x hx
        obtain ⟨i, hi⟩ := List.mem_iff_getElem?.1 hx
        have hil : i < c.cols.coldtrap_names.length := by
          rw [← l1]; exact (List.getElem?_eq_some_iff.1 hi).1
        obtain ⟨y, y1, y2⟩ := i1 i _ (List.getElem?_eq_getElem hil)
        rw [hi] at y1
        cases y1
        obtain ⟨z, z1, z2⟩ := hd.hops hm _ (List.getElem_mem hil)
        rw [show d.hop.get c.cols.coldtrap_names[i] = .ok z from z1] at y2
        cases y2
        exact z2
      refine List.forall₂_map_left_iff.2 (List.forall₂_map_right_iff.2 (hshare.1.imp ?_))
      intro x y hxy
      apply map_le
      intro b hb
      exact mul_le_mul_of_nonneg_left hxy (div_nonneg (hb0 b hb) hhop.le)
    · rw [if_neg hm] at a2 b2
      cases a2; cases b2
      refine List.forall₂_map_left_iff.2 (List.forall₂_map_right_iff.2 (hshare.1.imp ?_))
      intro x y hxy
      generalize c.cols.coldtrap_names.length = n
      induction n with
      | zero => exact .nil
      | succ n ih => rw [List.replicate_succ, List.replicate_succ]; exact .cons hxy ih
  rw [← e₁, ← e₂]
  have hb := hshare.2
  exact addRows_le hrows hb

theorem iceCols_le (g : Gen σ) (hg : LawfulGen g) {c c' : RunCfg} {d : RunData} (h : Gentler c c')
    (hc : PhysicalCfg c) (hd : PhysicalData c d) (hd' : PhysicalData c' d) (df : CraterTable)
    (hdf : ∀ r ∈ df, r.rest.crater.isbasin = true → 0 < r.rest.crater.rad)
    (time : List ℝ) (hne : time ≠ []) (s s₁ s₂ : σ) (m m' : List (List ℝ))
    (e₁ : iceCols g c d df time s = .ok (m, s₁)) (e₂ : iceCols g c' d df time s = .ok (m', s₂)) :
    List.Forall₂ ArrLE m m' := by
  unfold iceCols at e₁ e₂
  obtain ⟨⟨p, t⟩, a1, e₁⟩ := bind_ok_inv e₁
  obtain ⟨v, a2, e₁⟩ := bind_ok_inv e₁
  obtain ⟨rows, a3, e₁⟩ := bind_ok_inv e₁
  obtain ⟨⟨p', t'⟩, b1, e₂⟩ := bind_ok_inv e₂
  obtain ⟨v', b2, e₂⟩ := bind_ok_inv e₂
  obtain ⟨rows', b3, e₂⟩ := bind_ok_inv e₂
  injection e₁ with e₁
  injection e₂ with e₂
  injection e₁ with e₁ _
  injection e₂ with e₂ _
  subst e₁
  subst e₂
  have hc' := gentler_physical h hc
  obtain ⟨v'', k1, k2⟩ := volcanicIce_ok hc' hd' time
  have hv0 : ∀ x ∈ v', 0 ≤ x := by
    rw [k1] at b2
    cases b2
    exact k2.2
  exact iceColsTime_le h hc hd (polarIce_le g hg h hc hd' df hdf time hne s _ _ _ _ a1 b1).1
    (volcanic_le h hc hd time _ _ a2 b2) hv0 a3 b3

/-! ## Columns -/

theorem column_le {m m' : List (List ℝ)} (h : List.Forall₂ ArrLE m m') (i : Nat) :
    ArrLE (column m i) (column m' i) := by
  unfold column
  induction h with
  | nil => exact .nil
  | @cons r r' _ _ hr _ ih =>
    rw [List.filterMap_cons, List.filterMap_cons]
    have hl := hr.length_eq
    by_cases hi : i < r.length
    · have hi' : i < r'.length := by omega
      rw [List.getElem?_eq_getElem hi, List.getElem?_eq_getElem hi']
      exact .cons ((forall₂_iff_getElem?.1 hr).2 i _ _ (List.getElem?_eq_getElem hi)
        (List.getElem?_eq_getElem hi')) ih
    · rw [List.getElem?_eq_none (by omega), List.getElem?_eq_none (by omega)]
      exact ih

/-- Same cold trap and ejecta, and at least as much ice in every layer. -/
def TrapLE (p q : String × StratCol ℝ) : Prop :=
  p.1 = q.1 ∧ ArrLE p.2.ice q.2.ice ∧ p.2.ej = q.2.ej

theorem buildCols_le {m m' : List (List ℝ)} (h : List.Forall₂ ArrLE m m')
    {ej ej' : List (List ℝ × List String)} (he : List.Forall₂ (fun e e' => e.1 = e'.1) ej ej') :
    ∀ (names : List String) (i : Nat) (acc acc' cols cols' : PyDict (StratCol ℝ)),
      List.Forall₂ TrapLE acc acc' → buildCols m ej i names acc = .ok cols →
      buildCols m' ej' i names acc' = .ok cols' → List.Forall₂ TrapLE cols cols'
  | [], _, _, _, _, _, ha, e₁, e₂ => by cases e₁; cases e₂; exact ha
  | name :: rest, i, acc, acc', cols, cols', ha, e₁, e₂ => by
    unfold buildCols at e₁ e₂
    obtain ⟨e, a1, e₁⟩ := bind_ok_inv e₁
    obtain ⟨e', b1, e₂⟩ := bind_ok_inv e₂
    refine buildCols_le h he rest (i + 1) _ _ cols cols' ?_ e₁ e₂
    refine set_forall₂ (fun p q hpq => hpq.1) ha ⟨rfl, column_le h i, ?_⟩
    exact (forall₂_iff_getElem?.1 he).2 i e e' (pyGet_eq_ok.1 a1) (pyGet_eq_ok.1 b1)

theorem ejecta_same {time : List ℝ} {rows : List (EjRow ℝ)} {tol t t' : ℝ}
    {e e' : List ℝ × List String} (h : ejectaThicknessTime tol t time rows = .ok e)
    (h' : ejectaThicknessTime tol t' time rows = .ok e') : e.1 = e'.1 := by
  unfold ejectaThicknessTime at h h'
  obtain ⟨a, a1, h⟩ := bind_ok_inv h
  obtain ⟨b, _, h⟩ := bind_ok_inv h
  obtain ⟨a', a1', h'⟩ := bind_ok_inv h'
  obtain ⟨b', _, h'⟩ := bind_ok_inv h'
  rw [a1] at a1'
  cases a1'
  cases h
  cases h'
  rfl

theorem initStratCols_le (g : Gen σ) (hg : LawfulGen g) {c c' : RunCfg} {d : RunData}
    (h : Gentler c c') (hc : PhysicalCfg c) (hd : PhysicalData c d) (hd' : PhysicalData c' d)
    (time : List ℝ) (hne : time ≠ []) (df : CraterTable)
    (hdf : ∀ r ∈ df, r.rest.crater.isbasin = true → 0 < r.rest.crater.rad) (thick : List (List ℝ)) (s s₁ s₂ : σ) (cols cols' : PyDict (StratCol ℝ))
    (e₁ : initStratCols g c d time df thick s = .ok (cols, s₁))
    (e₂ : initStratCols g c' d time df thick s = .ok (cols', s₂)) :
    List.Forall₂ TrapLE cols cols' := by
  have hn : c'.coldtrap_names = c.coldtrap_names := by rw [h.same]; rfl
  obtain ⟨ej, ice, a1, a2, a3⟩ := initStratCols_inv _ _ _ _ _ _ _ _ _ e₁
  obtain ⟨ej', ice', b1, b2, b3⟩ := initStratCols_inv _ _ _ _ _ _ _ _ _ e₂
  rw [hn] at b1 b3
  refine buildCols_le (iceCols_le g hg h hc hd hd' df hdf time hne s _ _ _ _ a2 b2) ?_ _ _ _ _ _ _ .nil a3 b3
  obtain ⟨l1, i1⟩ := mapM_ok_inv _ _ _ a1
  obtain ⟨l2, i2⟩ := mapM_ok_inv _ _ _ b1
  rw [forall₂_iff_getElem?]
  refine ⟨by rw [l1, l2], fun i x y hx hy => ?_⟩
  have hil := (List.getElem?_eq_some_iff.1 hx).1
  rw [l1] at hil
  obtain ⟨u, k1, k2⟩ := i1 i _ (List.getElem?_eq_getElem hil)
  obtain ⟨w, k3, k4⟩ := i2 i _ (List.getElem?_eq_getElem hil)
  rw [hx] at k1
  rw [hy] at k3
  cases k1
  cases k3
  exact ejecta_same k2 k4

/-! ## Loss -/

theorem overturn_le {c c' : RunCfg} (h : Gentler c c') (hc : PhysicalCfg c) (time : List ℝ) :
    List.Forall₂ (· ≥ ·) (overturnDepth c.overturn time) (overturnDepth c'.overturn time) := by
  have e : c'.overturn = { c.overturn with
      ice_erosion_rate := c'.ice_erosion_rate, overturn_depth_present := c'.overturn_depth_present,
      overturn_ancient_slope := c'.overturn_ancient_slope } := by rw [h.same]; rfl
  have hts := hc.ts
  rw [e]
  suffices hs : ArrLE (overturnDepth { c.overturn with
      ice_erosion_rate := c'.ice_erosion_rate, overturn_depth_present := c'.overturn_depth_present,
      overturn_ancient_slope := c'.overturn_ancient_slope } time) (overturnDepth c.overturn time) by
    exact hs.flip
  unfold overturnDepth
  simp only
  split
  · apply map_le
    intro t _
    unfold overturnCostello
    simp only
    rcases h.gardening with ⟨h1, h2⟩ | ⟨h1, h2, h3, h4⟩
    · rw [h1, h2]; exact le_rfl
    split
    · rename_i ht
      rw [one_mul, one_mul]
      have ht' : 0 ≤ t - c.overturn.overturn_ancient_t0 := by linarith
      have k1 : 0 ≤ c'.overturn_ancient_slope * (t - c.overturn.overturn_ancient_t0) + 1 := by
        have := mul_nonneg h4 ht'; linarith
      have k2 : c'.overturn_ancient_slope * (t - c.overturn.overturn_ancient_t0) + 1 ≤
          c.overturn.overturn_ancient_slope * (t - c.overturn.overturn_ancient_t0) + 1 := by
        have := mul_le_mul_of_nonneg_right h3 ht'
        exact add_le_add_left this 1
      exact mul_le_mul h1 k2 k1 h2
    · rw [one_mul, one_mul]; exact h1
  · apply map_le
    intro t _
    rw [mul_one, mul_one]
    exact mul_le_mul_of_nonneg_right h.erosion (div_nonneg hts.le (by norm_num))

theorem ages_zero_le {tol : ℝ} {time : List ℝ} {items : List (ℝ × Option ℝ)} {o : List ℝ}
    (h : ages2time tol time items nanmax 0 = .ok o) : time ≠ [] ∧ o.length = time.length ∧ ∀ x ∈ o, 0 ≤ x := by
  have hne : time ≠ [] := by rintro rfl; cases h
  obtain ⟨o', h1, h2, h3⟩ := C16_maximum tol time hne items
  rw [h] at h1
  cases h1
  refine ⟨hne, h2, fun x hx => ?_⟩
  obtain ⟨i, hi⟩ := List.mem_iff_getElem?.1 hx
  exact ((h3 i x hi x).1 le_rfl).1

/-- One cold trap with two fractions lost. -/
theorem bsedColumn_le {cfg : BsedCfg ℝ} {f : ℝ} (hf : f ≤ cfg.ballistic_sed_frac_lost)
    {time ages thick : List ℝ} {ratios melts : List (Option ℝ)} {p q : List ℝ × List ℝ}
    (e₁ : bsedColumn cfg time ages thick ratios melts = .ok p)
    (e₂ : bsedColumn { cfg with ballistic_sed_frac_lost := f } time ages thick ratios melts = .ok q) :
    q.1 = p.1 ∧ ArrLE q.2 p.2 := by
  unfold bsedColumn at e₁ e₂
  obtain ⟨a, a1, e₁⟩ := bind_ok_inv e₁
  obtain ⟨b, a2, e₁⟩ := bind_ok_inv e₁
  obtain ⟨m, a3, e₁⟩ := bind_ok_inv e₁
  obtain ⟨a', b1, e₂⟩ := bind_ok_inv e₂
  obtain ⟨b', b2, e₂⟩ := bind_ok_inv e₂
  obtain ⟨m', b3, e₂⟩ := bind_ok_inv e₂
  simp only at b1 b2 b3
  rw [a1] at b1; cases b1
  rw [a2] at b2; cases b2
  rw [a3] at b3; cases b3
  injection e₁ with e₁
  injection e₂ with e₂
  subst e₁
  subst e₂
  refine ⟨rfl, map_le ?_⟩
  intro x hx
  exact mul_le_mul_of_nonneg_left hf ((ages_zero_le a3).2.2 x hx)

/-- One cold trap: depths are not negative if ejecta are not. -/
theorem bsedColumn_nonneg {cfg : BsedCfg ℝ} {time ages thick : List ℝ}
    {ratios melts : List (Option ℝ)} {p : List ℝ × List ℝ} (ht : ∀ x ∈ thick, 0 ≤ x)
    (hl : 0 ≤ cfg.ballistic_sed_frac_lost)
    (e : bsedColumn cfg time ages thick ratios melts = .ok p) :
    NNArr time.length p.1 ∧ NNArr time.length p.2 := by
  unfold bsedColumn at e
  obtain ⟨a, a1, e⟩ := bind_ok_inv e
  obtain ⟨b, a2, e⟩ := bind_ok_inv e
  obtain ⟨m, a3, e⟩ := bind_ok_inv e
  injection e with e
  subst e
  obtain ⟨hne, k2, k3⟩ := ages_zero_le a3
  obtain ⟨-, l2, l3⟩ := ages_zero_le a2
  obtain ⟨o, o1, o2, o3⟩ := thick_time cfg.rtol time hne ages thick
  rw [a1] at o1
  cases o1
  have ha : ∀ x ∈ a, 0 ≤ x := by
    intro x hx
    obtain ⟨i, hi⟩ := List.mem_iff_getElem?.1 hx
    have hil : i < time.length := by rw [← o2]; exact (List.getElem?_eq_some_iff.1 hi).1
    rw [o3 i hil] at hi
    cases hi
    apply List.sum_nonneg
    intro y hy
    obtain ⟨q, hq, rfl⟩ := List.mem_map.1 hy
    exact ht _ (List.of_mem_zip (a := q.1) (b := q.2) (List.mem_of_mem_filter hq)).2
  refine ⟨⟨by simp [o2, l2], ?_⟩, by simp [k2], ?_⟩
  · intro x hx
    rw [← List.map_uncurry_zip_eq_zipWith] at hx
    obtain ⟨q, hq, rfl⟩ := List.mem_map.1 hx
    exact mul_nonneg (ha _ (List.of_mem_zip (a := q.1) (b := q.2) hq).1)
      (l3 _ (List.of_mem_zip (a := q.1) (b := q.2) hq).2)
  · intro x hx
    obtain ⟨y, hy, rfl⟩ := List.mem_map.1 hx
    exact mul_nonneg (k3 y hy) hl

theorem forall₂_ge {m m' : List (List ℝ)} (h : List.Forall₂ ArrLE m' m) :
    List.Forall₂ (List.Forall₂ (· ≥ ·)) m m' :=
  h.flip.imp (fun _ _ h => List.Forall₂.flip h)

theorem bsedArrays_le {c c' : RunCfg} {d : RunData} (h : Gentler c c') (hd : PhysicalData c d)
    (time : List ℝ) (df : CraterTable) (dists : List (List (Option ℝ))) (thick : List (List ℝ))
    (ht : ∀ j, j < c.coldtrap_names.length → ∀ x ∈ column thick j, 0 ≤ x)
    (bd bf bd' bf' : List (List ℝ)) (e₁ : bsedArrays c d time df dists thick = .ok (bd, bf))
    (e₂ : bsedArrays c' d time df dists thick = .ok (bd', bf')) :
    List.Forall₂ (List.Forall₂ (· ≥ ·)) bd bd' ∧ List.Forall₂ (List.Forall₂ (· ≥ ·)) bf bf' := by
  have hn : c'.coldtrap_names = c.coldtrap_names := by rw [h.same]; rfl
  have hm : mixingRatio c'.mixing_ratio_petro c'.mixing_ratio_a c'.mixing_ratio_b =
      mixingRatio c.mixing_ratio_petro c.mixing_ratio_a c.mixing_ratio_b := by rw [h.same]; rfl
  have hb : c'.bsed = { c.bsed with ballistic_sed := c'.ballistic_sed,
                                    ballistic_sed_frac_lost := c'.ballistic_sed_frac_lost } := by
    rw [h.same]; rfl
  unfold bsedArrays at e₁ e₂
  obtain ⟨o, a1, e₁⟩ := bind_ok_inv e₁
  obtain ⟨o', b1, e₂⟩ := bind_ok_inv e₂
  rw [hn, hm, hb] at b1
  injection e₁ with e₁
  injection e₂ with e₂
  injection e₁ with f1 f2
  injection e₂ with g1 g2
  obtain ⟨traps, htr⟩ : ∃ t, t = (List.range c.coldtrap_names.length).map
    (fun i => (column dists i, column thick i)) := ⟨_, rfl⟩
  rw [← htr] at a1 b1
  have htn : ∀ t ∈ traps, ∀ x ∈ t.2, 0 ≤ x := by
    intro t htm
    rw [htr] at htm
    obtain ⟨j, hj, rfl⟩ := List.mem_map.1 htm
    exact ht j (List.mem_range.1 hj)
  have key : List.Forall₂ (fun q p : List ℝ × List ℝ => ArrLE q.1 p.1 ∧ ArrLE q.2 p.2) o' o := by
    unfold bsedDepth at a1 b1
    simp only at b1
    by_cases hs' : c'.ballistic_sed = true
    · have hs := h.sed hs'
      rw [if_neg (by simp [show c.bsed.ballistic_sed = true from hs])] at a1
      rw [if_neg (by simp [hs'])] at b1
      obtain ⟨melts, m1, a1⟩ := bind_ok_inv a1
      obtain ⟨melts', m2, b1⟩ := bind_ok_inv b1
      have m2 := m1.symm.trans m2
      cases m2
      obtain ⟨l1, i1⟩ := mapM_ok_inv _ _ _ a1
      obtain ⟨l2, i2⟩ := mapM_ok_inv _ _ _ b1
      rw [forall₂_iff_getElem?]
      refine ⟨by rw [l1, l2], fun i q p hq hp => ?_⟩
      have hil := (List.getElem?_eq_some_iff.1 hp).1
      rw [l1] at hil
      obtain ⟨u, k1, k2⟩ := i1 i _ (List.getElem?_eq_getElem hil)
      obtain ⟨w, k3, k4⟩ := i2 i _ (List.getElem?_eq_getElem hil)
      rw [hp] at k1; cases k1
      rw [hq] at k3; cases k3
      rw [hs', ← hs] at k4
      obtain ⟨q1, q2⟩ := bsedColumn_le h.lost k2 k4
      exact ⟨q1 ▸ arrLE_refl _, q2⟩
    · rw [if_pos (by simpa using hs')] at b1
      cases b1
      have hz : ∀ p ∈ o, NNArr time.length p.1 ∧ NNArr time.length p.2 := by
        intro p hp
        by_cases hs : c.bsed.ballistic_sed = true
        · rw [if_neg (by simp [hs])] at a1
          obtain ⟨melts, m1, a1⟩ := bind_ok_inv a1
          obtain ⟨l1, i1⟩ := mapM_ok_inv _ _ _ a1
          obtain ⟨i, hi⟩ := List.mem_iff_getElem?.1 hp
          have hil := (List.getElem?_eq_some_iff.1 hi).1
          rw [l1] at hil
          obtain ⟨u, k1, k2⟩ := i1 i _ (List.getElem?_eq_getElem hil)
          rw [hi] at k1; cases k1
          refine bsedColumn_nonneg (htn _ ?_) hd.lost.1 k2
          exact (List.of_mem_zip (a := (traps.zip melts)[i].1) (b := (traps.zip melts)[i].2)
            (List.getElem_mem hil)).1
        · rw [if_pos hs] at a1
          cases a1
          obtain ⟨t, -, rfl⟩ := List.mem_map.1 hp
          constructor <;> exact ⟨by simp, fun x hx => by
            obtain ⟨_, _, rfl⟩ := List.mem_map.1 hx; exact le_rfl⟩
      have hlen : o.length = traps.length := by
        by_cases hs : c.bsed.ballistic_sed = true
        · rw [if_neg (by simp [hs])] at a1
          obtain ⟨melts, m1, a1⟩ := bind_ok_inv a1
          rw [(mapM_ok_inv _ _ _ a1).1, List.length_zip,
            (getMeltFrac_range d.melt hd.melt _ _ m1).1]
          simp
        · rw [if_pos hs] at a1
          cases a1
          simp
      rw [forall₂_iff_getElem?]
      refine ⟨by simp [hlen], fun i q p hq hp => ?_⟩
      rw [List.getElem?_map] at hq
      cases htt : traps[i]? with
      | none => rw [htt] at hq; cases hq
      | some t =>
        rw [htt] at hq
        cases hq
        obtain ⟨z1, z2⟩ := hz p (List.mem_of_getElem? hp)
        exact ⟨zeros_le rfl z1, zeros_le rfl z2⟩
  have hcol : ∀ (f : List ℝ × List ℝ → List ℝ),
      List.Forall₂ (fun q p => ArrLE (f q) (f p)) o' o →
      List.Forall₂ ArrLE ((List.range time.length).map (column (o'.map f)))
        ((List.range time.length).map (column (o.map f))) := by
    intro f hf
    have hf' : List.Forall₂ ArrLE (o'.map f) (o.map f) :=
      List.forall₂_map_left_iff.2 (List.forall₂_map_right_iff.2 hf)
    generalize List.range time.length = l
    induction l with
    | nil => exact .nil
    | cons i l ih => exact .cons (column_le hf' i) ih
  rw [← f1, ← f2, ← g1, ← g2]
  exact ⟨forall₂_ge (hcol _ (key.imp (fun _ _ h => h.1))),
    forall₂_ge (hcol _ (key.imp (fun _ _ h => h.2)))⟩

end MoonPIES
