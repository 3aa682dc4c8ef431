import Verif.Props.Rate
import Verif.Props.Supply
import Verif.Lemmas.Traps

/-!
# C164: the ice kept as a function of the hydration of impactors and the rate of erosion
-/

namespace MoonPIES

open Spec Set

variable {σ : Type}

/-- A configuration with other hydrations of asteroids and comets and another rate of erosion. -/
def withWater (c : RunCfg) (p : ℝ × ℝ × ℝ) : RunCfg :=
  { c with hydrated_wt_pct := p.1, comet_hydrated_wt_pct := p.2.1, ice_erosion_rate := p.2.2 }

theorem polarIce_water (g : Gen σ) (hg : LawfulGen g) (c : RunCfg) (d : RunData) (hcom : c.is_comet = false)
    (hc : PhysicalCfg c) (hd : PhysicalData c d) (df : CraterTable)
    (hdf : ∀ r ∈ df, r.rest.crater.isbasin = true → 0 < r.rest.crater.rad)
    (time : List ℝ) (hne : time ≠ []) (s : σ) :
    ∃ A B S : List ℝ, ∃ s' : σ, NNArr time.length A ∧ NNArr time.length B ∧ NNArr time.length S ∧
      solarWindIce c.solar (readLuminosity d.lum) time = .ok S ∧
      ∀ p : ℝ × ℝ × ℝ, polarIce g (withWater c p) (readLuminosity d.lum) df time s =
        .ok (addArr (addArr (scaleArr p.1 A) (scaleArr p.2.1 B)) S, s') := by
  have h1 : PhysicalCfg (withWater c (1, 1, 0)) := { hc with chw := zero_le_one, hw := zero_le_one }
  have hd1 : PhysicalData (withWater c (1, 1, 0)) d := { hd with }
  obtain ⟨A, s1, a1, a2⟩ := impactIce_ok g hg h1 df hdf time hne s
  obtain ⟨B, s2, b1, b2⟩ := impactIce_ok g hg (physical_comet h1) df hdf time hne s1
  obtain ⟨S, w1, w2⟩ := solarWindIce_ok h1 hd1 time
  have ast : ∀ p : ℝ × ℝ × ℝ, impactIce g (withWater c p) df time s = .ok (scaleArr p.1 A, s1) := by
    intro p
    have := impactIce_scale g (withWater c (1, 1, 0)) (withWater c p) p.1 rfl rfl rfl df time s (by
      unfold wFactor
      rw [if_neg (by simp [withWater, hcom]), if_neg (by simp [withWater, hcom])]
      show p.1 * c.impact_mass_retained = p.1 * (1 * c.impact_mass_retained)
      ring) rfl (by show p.1 = p.1 * 1; ring)
    rw [this, a1]
    rfl
  have com : ∀ p : ℝ × ℝ × ℝ, impactIceComet g (withWater c p) df time s1 = .ok (scaleArr p.2.1 B, s2) := by
    intro p
    have := impactIce_scale g (withWater c (1, 1, 0)).comet (withWater c p).comet p.2.1 rfl rfl rfl df time s1 (by
      unfold wFactor
      show p.2.1 * c.comet_mass_retained = p.2.1 * (1 * c.comet_mass_retained)
      ring) rfl (by show p.2.1 = p.2.1 * 1; ring)
    unfold impactIceComet
    rw [this, b1]
    rfl
  have z : ∀ (k : ℝ) (l : List ℝ), l.length = time.length →
      addArr l (scaleArr k (time.map fun _ => (0 : ℝ))) = l := by
    intro k l hl
    refine List.ext_getElem (by simp [addArr, scaleArr, hl]) fun i h1 h2 => ?_
    simp [addArr, scaleArr]
  refine ⟨A, if c.impact_ice_comets then B else time.map fun _ => 0, S, s2, a2, ?_, w2, w1, fun p => ?_⟩
  · split
    · exact b2
    · exact ⟨by simp, by simp⟩
  · have w1' : solarWindIce (withWater c p).solar (readLuminosity d.lum) time = .ok S := w1
    unfold polarIce
    simp only [bind, Except.bind, ast p, com p, w1']
    show Except.ok (addArr (if c.impact_ice_comets = true then _ else _) S, s2) = _
    by_cases hi : c.impact_ice_comets = true
    · rw [if_pos hi, if_pos hi]
    · rw [if_neg hi, if_neg hi, z _ _ (by simp [scaleArr, a2.1])]

theorem iceCols_water_from (g : Gen σ) (hg : LawfulGen g) (c : RunCfg) (d : RunData) (hcom : c.is_comet = false)
    (hc : PhysicalCfg c) (hd : PhysicalData c d) (df : CraterTable)
    (hdf : ∀ r ∈ df, r.rest.crater.isbasin = true → 0 < r.rest.crater.rad)
    (time : List ℝ) (hne : time ≠ []) (s : σ) (j : Nat) (name : String) (hj : c.coldtrap_names[j]? = some name) :
    ∃ (u a b S v : List ℝ) (φ κ : ℝ), NNArr time.length u ∧ NNArr time.length a ∧ NNArr time.length b ∧
      u = addArr (scaleArr φ S) (scaleArr κ v) ∧ solarWindIce c.solar (readLuminosity d.lum) time = .ok S ∧
      volcanicIce c.volc_mode c.ice c.head (fun x => (roundHalfEven x : ℝ)) d.sortNk RunCfg.rtol c.timestep time d.nk =
        .ok v ∧
      (c.ballistic_hop_moores = true → ∃ x, d.hop.get name = .ok x ∧ φ = x / c.ballistic_hop_effcy) ∧
      (c.use_volc_dep_effcy = true → κ = c.volc_dep_effcy / c.ballistic_hop_effcy) ∧
      ∀ p : ℝ × ℝ × ℝ, 0 ≤ p → ∃ rows s', iceCols g (withWater c p) d df time s = .ok (rows, s') ∧
        rows.length = time.length ∧ (∀ row ∈ rows, row.length = c.coldtrap_names.length) ∧
        column rows j = addArr u (addArr (scaleArr p.1 a) (scaleArr p.2.1 b)) := by
  obtain ⟨A, B, S, s', hA, hB, hS, hsol, hpol⟩ := polarIce_water g hg c d hcom hc hd df hdf time hne s
  obtain ⟨v, hv, hvn⟩ := volcanicIce_ok hc hd time
  obtain ⟨φ, hφ⟩ : ∃ φ, φ = (if c.ballistic_hop_moores then
    (match d.hop.get name with | .ok b => b / c.ballistic_hop_effcy | .error _ => 0) else 1) := ⟨_, rfl⟩
  have hφ0 : 0 ≤ φ := by
    rw [hφ]
    split
    · rename_i hm
      obtain ⟨x, hx, hx0⟩ := hd.hops hm name (List.mem_of_getElem? hj)
      rw [hx]
      exact div_nonneg hx0 hc.hop.le
    · exact zero_le_one
  have nn : ∀ {l : List ℝ}, NNArr time.length l → NNArr time.length (scaleArr φ l) := fun hl =>
    ⟨by simp [scaleArr, hl.1], by
      intro x hx
      obtain ⟨y, hy, rfl⟩ := List.mem_map.1 hx
      exact mul_nonneg hφ0 (hl.2 y hy)⟩
  have hdep := hd.volc.2.2.2.2.2.2
  obtain ⟨κ, hκ⟩ : ∃ κ, κ = (if c.use_volc_dep_effcy then c.volc_dep_effcy / c.ballistic_hop_effcy else φ) := ⟨_, rfl⟩
  have hκ0 : 0 ≤ κ := by
    rw [hκ]
    split
    · exact div_nonneg hdep hc.hop.le
    · exact hφ0
  refine ⟨addArr (scaleArr φ S) (scaleArr κ v), scaleArr φ A, scaleArr φ B, S, v, φ, κ, addArr_nn (nn hS) ?_, nn hA,
    nn hB, rfl, hsol, hv, fun hm => ?_, fun hu => by rw [hκ, if_pos hu], fun p hp => ?_⟩
  · refine ⟨by simp [scaleArr, hvn.1], ?_⟩
    intro x hx
    obtain ⟨y, hy, rfl⟩ := List.mem_map.1 hx
    exact mul_nonneg hκ0 (hvn.2 y hy)
  · obtain ⟨x, hx, -⟩ := hd.hops hm name (List.mem_of_getElem? hj)
    exact ⟨x, hx, by rw [hφ, if_pos hm, hx]⟩
  · have hcp : PhysicalCfg (withWater c p) := { hc with chw := hp.2.1, hw := hp.1 }
    have hdp : PhysicalData (withWater c p) d := { hd with }
    have hpp : NNArr time.length (addArr (addArr (scaleArr p.1 A) (scaleArr p.2.1 B)) S) := by
      obtain ⟨o, t, o1, o2⟩ := polarIce_ok g hg hcp hdp df hdf time hne s
      rw [hpol p] at o1
      injection o1 with o1
      injection o1 with o1 _
      rwa [o1]
    obtain ⟨rows, r1, r2, r3⟩ := iceColsTime_ok hcp hdp hpp hvn
    have hv' : volcanicIce (withWater c p).volc_mode (withWater c p).ice (withWater c p).head
        (fun x => (roundHalfEven x : ℝ)) d.sortNk RunCfg.rtol (withWater c p).timestep time d.nk = .ok v := hv
    refine ⟨rows, s', ?_, r2, fun row hrow => (r3 row hrow).1, ?_⟩
    · unfold iceCols
      simp only [bind, Except.bind, hpol p, hv', r1]
    · obtain ⟨pv, b, k1, k2, k3⟩ := iceColsTime_col r1 (j := j) (name := name) hj
      have hf : ∀ q : ℝ, (if (withWater c p).cols.ballistic_hop_moores then
          b / (withWater c p).cols.ballistic_hop_effcy * q else q) = φ * q := by
        intro q
        rw [hφ]
        by_cases hm : c.ballistic_hop_moores = true
        · rw [if_pos (show (withWater c p).cols.ballistic_hop_moores = true from hm), if_pos hm, k2 hm]
          rfl
        · rw [if_neg (show ¬ (withWater c p).cols.ballistic_hop_moores = true from hm), if_neg hm, one_mul]
      rw [k3]
      simp only [hf]
      unfold volcShare at k1
      have lA := hA.1
      have lB := hB.1
      have lS := hS.1
      have lv := hvn.1
      by_cases hu : c.use_volc_dep_effcy = true
      · rw [if_pos (show (withWater c p).cols.use_volc_dep_effcy = true from hu),
          if_neg (show (withWater c p).cols.ballistic_hop_effcy ≠ 0 from hc.hop.ne')] at k1
        injection k1 with k1
        subst k1
        have hκ' : (withWater c p).cols.volc_dep_effcy / (withWater c p).cols.ballistic_hop_effcy = κ := by
          rw [hκ, if_pos hu]; rfl
        rw [hκ']
        refine List.ext_getElem (by simp [addArr, scaleArr, lA, lB, lS, lv]) fun i h1 h2 => ?_
        simp only [addArr, scaleArr, List.getElem_zipWith, List.getElem_map]
        ring
      · rw [if_neg (show ¬ (withWater c p).cols.use_volc_dep_effcy = true from hu)] at k1
        injection k1 with k1
        subst k1
        have hκ' : κ = φ := by rw [hκ, if_neg hu]
        rw [hκ']
        refine List.ext_getElem (by simp [addArr, scaleArr, lA, lB, lS, lv]) fun i h1 h2 => ?_
        simp only [addArr, scaleArr, List.getElem_zipWith, List.getElem_map]
        ring

theorem iceCols_water (g : Gen σ) (hg : LawfulGen g) (c : RunCfg) (d : RunData) (hcom : c.is_comet = false)
    (hc : PhysicalCfg c) (hd : PhysicalData c d) (df : CraterTable)
    (hdf : ∀ r ∈ df, r.rest.crater.isbasin = true → 0 < r.rest.crater.rad)
    (time : List ℝ) (hne : time ≠ []) (s : σ) (j : Nat) (name : String) (hj : c.coldtrap_names[j]? = some name) :
    ∃ u a b : List ℝ, NNArr time.length u ∧ NNArr time.length a ∧ NNArr time.length b ∧
      ∀ p : ℝ × ℝ × ℝ, 0 ≤ p → ∃ rows s', iceCols g (withWater c p) d df time s = .ok (rows, s') ∧
        rows.length = time.length ∧ (∀ row ∈ rows, row.length = c.coldtrap_names.length) ∧
        column rows j = addArr u (addArr (scaleArr p.1 a) (scaleArr p.2.1 b)) := by
  obtain ⟨u, a, b, -, -, -, -, h1, h2, h3, -, -, -, -, -, h⟩ :=
    iceCols_water_from g hg c d hcom hc hd df hdf time hne s j name hj
  exact ⟨u, a, b, h1, h2, h3, h⟩

theorem addArr_drop (i : Nat) (a b : List ℝ) : (addArr a b).drop i = addArr (a.drop i) (b.drop i) := by
  unfold addArr
  rw [List.drop_zipWith]

theorem scaleArr_drop (i : Nat) (k : ℝ) (a : List ℝ) : (scaleArr k a).drop i = scaleArr k (a.drop i) := by
  unfold scaleArr
  rw [List.map_drop]

theorem addArr_sum : ∀ {a b : List ℝ}, a.length = b.length → (addArr a b).sum = a.sum + b.sum
  | [], [], _ => by simp [addArr]
  | x :: a, y :: b, h => by
    have := addArr_sum (a := a) (b := b) (by simpa using h)
    unfold addArr at this ⊢
    rw [List.zipWith_cons_cons, List.sum_cons, this, List.sum_cons, List.sum_cons]
    ring

theorem scaleArr_sum (k : ℝ) : ∀ a : List ℝ, (scaleArr k a).sum = k * a.sum
  | [] => by simp [scaleArr]
  | x :: a => by
    have := scaleArr_sum k a
    unfold scaleArr at this ⊢
    rw [List.map_cons, List.sum_cons, this, List.sum_cons]
    ring

/-- **C164** Runs with the erosion of Cannon et al. and no ballistic sedimentation that differ only in the hydration
of asteroids and comets and the rate of erosion: what a cold trap receives from each timestep on is an affine function
of both hydrations, and what is left of it is the greatest, over the periods that begin then or later, of what came
less what erosion can take.  So it is a convex function of the three together. -/
theorem C164_run (g : Gen σ) (hg : LawfulGen g) (c : RunCfg) (d : RunData) (hcom : c.is_comet = false)
    (hc : PhysicalCfg c) (hd : PhysicalData c d) (hnd : c.coldtrap_names.Nodup)
    (hcost : c.impact_gardening_costello = false) (hbs : c.ballistic_sed = false)
    (time : List ℝ) (htne : time ≠ []) (htime : getTimeArray c.timestart c.timeend c.timestep = .ok time)
    (out : ℝ × ℝ × ℝ → CsvOut) (hrun : ∀ p, 0 ≤ p → runMain g (withWater c p) d = .ok (out p)) (j : Nat)
    (name : String) (hj : c.coldtrap_names[j]? = some name) :
    ∃ (df : CraterTable) (s : σ) (u a b ej : List ℝ) (ice : ℝ × ℝ × ℝ → List ℝ),
      (∀ p, craterBasinList g (withWater c p) d (g.init c.seed) = .ok (df, s)) ∧
      (∀ p, 0 ≤ p → ∃ rows s', iceCols g (withWater c p) d df time s = .ok (rows, s') ∧ rows.length = time.length ∧
        ∀ (i : Nat) row x y z, rows[i]? = some row → u[i]? = some x → a[i]? = some y → b[i]? = some z →
          row[j]? = some (x + p.1 * y + p.2.1 * z)) ∧
      (∀ x ∈ u ++ a ++ b, 0 ≤ x) ∧ u.length = time.length ∧ a.length = time.length ∧ b.length = time.length ∧
      ej.length = time.length ∧
      (∀ p, 0 ≤ p → (out p).ice.get name = .ok (ice p) ∧ (out p).ej.get name = .ok ej) ∧
      ∀ k ≤ time.length,
        (∀ p, 0 ≤ p → IsGreatest {z | ∃ i, k ≤ i ∧ i ≤ time.length ∧
          z = (u.drop i).sum + p.1 * (a.drop i).sum + p.2.1 * (b.drop i).sum -
            p.2.2 * (c.timestep / 1e7) * (((ej.drop i).filter fun x => decide (x ≤ 0.4)).length : ℝ)}
          ((ice p).drop k).sum) ∧
        ConvexOn ℝ (Ici 0) (fun p => ((ice p).drop k).sum) := by
  have ht7 : 0 ≤ c.timestep / 1e7 := div_nonneg hc.ts.le (by norm_num)
  have hcp : ∀ p : ℝ × ℝ × ℝ, 0 ≤ p → PhysicalCfg (withWater c p) := fun p hp =>
    { hc with chw := hp.2.1, hw := hp.1 }
  have hdp : ∀ p, PhysicalData (withWater c p) d := fun p => { hd with }
  have main := fun (p : ℝ × ℝ × ℝ) (hp : 0 ≤ p) => C162_run g hg (withWater c p) d (hcp p hp) (hdp p) hnd hcost hbs
    (p.2.2 * (c.timestep / 1e7)) (mul_nonneg hp.2.2 ht7) rfl time htne htime (out p) (hrun p hp) j name hj
  obtain ⟨df, s, s', del, ys, ice0, ej, a1, a2, a3, a4, a5, a6, a7, a8, a9, -⟩ := main 0 le_rfl
  have hrad := craterBasinList_rad g (hdp 0) _ _ _ a1
  obtain ⟨u, a, b, nu, na, nb, haff⟩ := iceCols_water g hg c d hcom hc hd df hrad time htne s j name hj
  have hjn : j < c.coldtrap_names.length := (List.getElem?_eq_some_iff.1 hj).1
  have all : ∀ p, ∃ ice : List ℝ, 0 ≤ p → (out p).ice.get name = .ok ice ∧ (out p).ej.get name = .ok ej ∧
      ∀ k ≤ time.length, IsGreatest (balancesFrom 0.4 (p.2.2 * (c.timestep / 1e7))
        ((addArr u (addArr (scaleArr p.1 a) (scaleArr p.2.1 b))).zip ej) k) (ice.drop k).sum := by
    intro p
    by_cases hp : 0 ≤ p
    · obtain ⟨df', t, t', del', ys', ice, ej', b1, b2, b3, b4, b5, b6, b7, b8, b9, -⟩ := main p hp
      have hdf : (Except.ok (df', t) : Except PyErr _) = .ok (df, s) := b1.symm.trans a1
      injection hdf with hdf
      injection hdf with hdf hs
      subst hdf hs
      obtain ⟨rows, s2, r1, r2, r3, r4⟩ := haff p hp
      rw [r1] at b2
      injection b2 with b2
      injection b2 with b2 _
      subst b2
      obtain ⟨c1, c2⟩ := column_spec hjn rows r3
      have hys : ys' = addArr u (addArr (scaleArr p.1 a) (scaleArr p.2.1 b)) := by
        rw [← r4]
        apply List.ext_getElem?
        intro i
        rcases Nat.lt_or_ge i rows.length with hi | hi
        · rw [(b5 i _ (List.getElem?_eq_getElem hi)).1, c2 i _ (List.getElem?_eq_getElem hi)]
        · rw [List.getElem?_eq_none (by omega), List.getElem?_eq_none (by omega)]
      subst hys
      obtain ⟨ej'', e1, e2⟩ := C121_ejecta g hg (withWater c 0) (withWater c p) d d
        ⟨rfl, rfl, rfl, rfl, rfl, rfl, rfl, rfl, rfl, rfl, rfl, rfl, rfl⟩ rfl rfl (hcp 0 le_rfl) (hcp p hp) (hdp 0)
        (hdp p) hnd (out 0) (out p) (hrun 0 le_rfl) (hrun p hp) name (List.mem_of_getElem? hj)
      rw [a7] at e1
      injection e1 with e1
      rw [b7] at e2
      injection e2 with e2
      subst e1
      rw [e2] at b7 b9
      exact ⟨ice, fun _ => ⟨b6, b7, b9⟩⟩
    · exact ⟨[], fun h => absurd h hp⟩
  choose ice hice using all
  refine ⟨df, s, u, a, b, ej, ice, fun _ => a1, fun p hp => ?_, ?_, nu.1, na.1, nb.1, a4, fun p hp => ⟨(hice p hp).1, (hice p hp).2.1⟩, fun k hk => ?_⟩
  · obtain ⟨rows, s2, r1, r2, r3, r4⟩ := haff p hp
    refine ⟨rows, s2, r1, r2, fun i row x y z hi hx hy hz => ?_⟩
    rw [← (column_spec hjn rows r3).2 i row hi, r4]
    simp [addArr, scaleArr, List.getElem?_zipWith, hx, hy, hz, add_assoc]
  · intro x hx
    rcases List.mem_append.1 hx with hx | hx
    · rcases List.mem_append.1 hx with hx | hx
      · exact nu.2 x hx
      · exact na.2 x hx
    · exact nb.2 x hx
  have lu := nu.1
  have la := na.1
  have lb := nb.1
  have hbal : ∀ (p : ℝ × ℝ × ℝ) (i : Nat), balance 0.4 (p.2.2 * (c.timestep / 1e7))
      (((addArr u (addArr (scaleArr p.1 a) (scaleArr p.2.1 b))).zip ej).drop i) =
        (u.drop i).sum + p.1 * (a.drop i).sum + p.2.1 * (b.drop i).sum -
          p.2.2 * (c.timestep / 1e7) * (((ej.drop i).filter fun x => decide (x ≤ 0.4)).length : ℝ) := by
    intro p i
    have hl : (addArr u (addArr (scaleArr p.1 a) (scaleArr p.2.1 b))).length = ej.length := by
      simp [addArr, scaleArr, lu, la, lb, a4]
    have e1 : (((addArr u (addArr (scaleArr p.1 a) (scaleArr p.2.1 b))).zip ej).drop i).map Prod.snd = ej.drop i := by
      rw [List.map_drop, List.map_snd_zip (by omega)]
    have e2 : (((addArr u (addArr (scaleArr p.1 a) (scaleArr p.2.1 b))).zip ej).drop i).map Prod.fst =
        (addArr u (addArr (scaleArr p.1 a) (scaleArr p.2.1 b))).drop i := by
      rw [List.map_drop, List.map_fst_zip (by omega)]
    unfold balance
    rw [e2, addArr_drop, addArr_drop, scaleArr_drop, scaleArr_drop, addArr_sum (by simp [addArr, scaleArr, lu, la, lb]),
      addArr_sum (by simp [scaleArr, la, lb]), scaleArr_sum, scaleArr_sum, ← e1, List.filter_map, List.length_map,
      ← add_assoc]
    rfl
  have great : ∀ p, 0 ≤ p → IsGreatest {z | ∃ i, k ≤ i ∧ i ≤ time.length ∧
      z = (u.drop i).sum + p.1 * (a.drop i).sum + p.2.1 * (b.drop i).sum -
        p.2.2 * (c.timestep / 1e7) * (((ej.drop i).filter fun x => decide (x ≤ 0.4)).length : ℝ)}
      ((ice p).drop k).sum := by
    intro p hp
    have := (hice p hp).2.2 k hk
    have hl : ((addArr u (addArr (scaleArr p.1 a) (scaleArr p.2.1 b))).zip ej).length = time.length := by
      simp [addArr, scaleArr, lu, la, lb, a4]
    unfold balancesFrom at this
    simp only [hbal, hl] at this
    exact this
  have hz : ∀ (p q : ℝ × ℝ × ℝ) (x y : ℝ), 0 ≤ p → 0 ≤ q → 0 ≤ x → 0 ≤ y → 0 ≤ x • p + y • q :=
    fun p q x y hp hq hx hy =>
      ⟨add_nonneg (mul_nonneg hx hp.1) (mul_nonneg hy hq.1), add_nonneg (mul_nonneg hx hp.2.1) (mul_nonneg hy hq.2.1),
        add_nonneg (mul_nonneg hx hp.2.2) (mul_nonneg hy hq.2.2)⟩
  refine ⟨great, ⟨fun p hp q hq x y hx hy _ => hz p q x y hp hq hx hy, fun p hp q hq x y hx hy hxy => ?_⟩⟩
  obtain ⟨i, i1, i2, i3⟩ := (great _ (hz p q x y hp hq hx hy)).1
  have gp := mul_le_mul_of_nonneg_left ((great p hp).2 ⟨i, i1, i2, rfl⟩) hx
  have gq := mul_le_mul_of_nonneg_left ((great q hq).2 ⟨i, i1, i2, rfl⟩) hy
  show _ ≤ x * _ + y * _
  refine le_trans (le_of_eq ?_) (add_le_add gp gq)
  refine Eq.trans i3 ?_
  simp only [Prod.fst_add, Prod.snd_add, Prod.smul_fst, Prod.smul_snd, smul_eq_mul]
  have hu : (u.drop i).sum = (x + y) * (u.drop i).sum := by rw [hxy, one_mul]
  linear_combination hu

/-- C164 applies to the runs that reproduce Cannon et al. (2020) with the shipped files, with any seed. -/
example (nk : List (ℝ × ℝ)) (sortAges : CraterTable → CraterTable) (sortNk : List (ℝ × ℝ) → List (ℝ × ℝ))
    (setOrder : List (List Char) → List (List Char)) (g : Gen σ) (hg : LawfulGen g) (hs : Spec.SortDesc sortAges)
    (seed : Int) : ∃ (out : ℝ × ℝ × ℝ → CsvOut) (ice : ℝ × ℝ × ℝ → List ℝ),
      (∀ p, 0 ≤ p → runMain g (withWater (RunCfg.cannon seed) p) (shippedData nk sortAges sortNk setOrder) =
        .ok (out p)) ∧
      (∀ p, 0 ≤ p → (out p).ice.get "Shoemaker" = .ok (ice p)) ∧ ConvexOn ℝ (Ici 0) fun p => (ice p).sum := by
  have hr : ∀ p : ℝ × ℝ × ℝ, ∃ out, 0 ≤ p →
      runMain g (withWater (RunCfg.cannon seed) p) (shippedData nk sortAges sortNk setOrder) = .ok out := by
    intro p
    by_cases hp : 0 ≤ p
    · obtain ⟨out, h⟩ := C72_returns g hg (withWater (RunCfg.cannon seed) p) (shippedData nk sortAges sortNk setOrder)
        { cannon_physical seed with chw := hp.2.1, hw := hp.1 }
        { cannon_data nk sortAges sortNk setOrder hs seed with }
        { cannon_runnable nk sortAges sortNk setOrder seed with }
      exact ⟨out, fun _ => h⟩
    · exact ⟨⟨[], [], [], []⟩, fun h => absurd h hp⟩
  choose out hout using hr
  obtain ⟨time, ht, htl⟩ : ∃ time : List ℝ, getTimeArray (4.25e9 : ℝ) 0 10e6 = .ok time ∧ time.length = 425 :=
    ⟨_, C19_uniform_partial (4.25e9 : ℝ) 10e6 425 (by norm_num) (by norm_num) (by norm_num), by simp [uniformGrid]⟩
  obtain ⟨_, _, _, _, _, _, ice, -, -, -, -, -, -, -, h6, h7⟩ := C164_run g hg (RunCfg.cannon seed) _ rfl (cannon_physical seed)
    (cannon_data nk sortAges sortNk setOrder hs seed) (cannon_runnable nk sortAges sortNk setOrder seed).nodup rfl rfl
    time (by intro h; simp [h] at htl) ht out hout 1 "Shoemaker" rfl
  exact ⟨out, ice, hout, fun p hp => (h6 p hp).1, by simpa using (h7 0 (by omega)).2⟩

end MoonPIES
