import Verif.Lemmas.MainTotal
import Verif.Model.Shipped
import Verif.Props.Flux

/-!
# The shipped files and the default configuration meet the hypotheses of C72
-/

namespace MoonPIES

open Real InnerProductGeometry

theorem angle_ne_pi {lat1 lon1 lat2 lon2 : ℝ} (h1 : |lat1| ≤ 90) (h2 : |lat2| ≤ 90)
    (h : lat1 + lat2 ≠ 0) : angle (direction lat1 lon1) (direction lat2 lon2) < π := by
  refine lt_of_le_of_ne (angle_le_pi _ _) ?_
  intro hpi
  apply h
  have hn : ∀ a b, ‖direction a b‖ ^ 2 = 1 := by
    intro a b
    rw [direction_norm, one_pow]
  obtain ⟨-, r, hr, hy⟩ := angle_eq_pi_iff.1 hpi
  have hr1 : r ^ 2 = 1 := by
    have := hn lat2 lon2
    rw [hy, norm_smul, mul_pow, hn, mul_one, Real.norm_eq_abs, sq_abs] at this
    exact this
  have hr2 : r = -1 := by nlinarith
  have hs : sin (lat2 * π / 180) = -sin (lat1 * π / 180) := by
    have := congrArg (fun v : EuclideanSpace ℝ (Fin 3) => v 2) hy
    simp only [direction, PiLp.smul_apply, hr2, PiLp.toLp_apply, smul_eq_mul] at this
    simp only [Matrix.cons_val] at this
    linarith
  rw [← sin_neg] at hs
  have hb : ∀ a : ℝ, |a| ≤ 90 → a * π / 180 ∈ Set.Icc (-(π / 2)) (π / 2) := by
    intro a ha
    have := abs_le.1 ha
    have := pi_pos
    constructor <;> nlinarith
  have := injOn_sin (hb _ h2) (by
    have := hb _ h1
    exact ⟨by linarith [this.2], by linarith [this.1]⟩) hs
  have hp := pi_pos
  have : (lat1 + lat2) * π = 0 := by linarith
  rcases mul_eq_zero.1 this with h | h
  · exact h
  · exact absurd h hp.ne'

/-! ## Files -/

theorem file_bars : ∀ r ∈ craterFile ++ basinFile,
    0 ≤ r.age_low ∧ 0 ≤ r.age_upp ∧ 0 < r.age_low + r.age_upp ∧ 0 < r.diam ∧
    5 / 1000 < r.age - r.age_low := by decide +kernel

theorem file_peak : ∀ r ∈ craterFile ++ basinFile, 140 ≤ r.diam → r.diam ≤ 3474 ∧ |r.lat| ≤ 90 ∧
    ∀ t ∈ craterFile ++ basinFile, ∀ p ∈ t.psr, |p.1| ≤ 90 ∧ r.lat + p.1 ≠ 0 := by decide +kernel

theorem file_melt : meltTemps.length = 81 ∧ ∀ r ∈ meltFile, r.2.length = 81 ∧
    ∀ v ∈ r.2, v ≤ 10 ^ 10 := by decide +kernel

theorem lum_nonneg : lumFile ≠ [] ∧ ∀ p ∈ lumFile, 0 ≤ p.2 := by decide +kernel

theorem shippedMelt_rows : ∀ r ∈ shippedMelt.rows, r.2.length = shippedMelt.temps.length ∧
    ∀ v ∈ r.2, 0 ≤ v ∧ v ≤ 1 := by
  intro r hr
  simp only [shippedMelt, List.mem_map] at hr ⊢
  obtain ⟨q, hq, rfl⟩ := hr
  obtain ⟨h1, h2⟩ := file_melt.2 q hq
  refine ⟨by simp [h1, file_melt.1], ?_⟩
  intro v hv
  obtain ⟨n, hn, rfl⟩ := List.mem_map.1 hv
  have : (n : ℝ) ≤ 10 ^ 10 := by exact_mod_cast h2 n hn
  constructor
  · positivity
  · rw [div_le_one (by positivity)]; exact this

theorem find_zip {α β : Type} [DecidableEq α] : ∀ (l : List α) (m : List β), m.length = l.length →
    ∀ t ∈ l, ∃ c, (l.zip m).find? (fun c => decide (c.1 = t)) = some c
  | [], _, _, t, ht => by simp at ht
  | a :: l, [], h, _, _ => by simp at h
  | a :: l, b :: m, h, t, ht => by
    rw [List.zip_cons_cons, List.find?_cons]
    by_cases e : a = t
    · exact ⟨(a, b), by simp [e]⟩
    · simp only [e, decide_false]
      rcases List.mem_cons.1 ht with h' | h'
      · exact absurd h'.symm e
      · exact find_zip l m (by simpa using h) t h'

theorem complete_of_rows (tbl : MeltTable ℝ)
    (h : ∀ r ∈ tbl.rows, r.2.length = tbl.temps.length) : tbl.Complete := by
  intro m hm t ht
  unfold MeltTable.at
  obtain ⟨r, hr, rfl⟩ := List.mem_map.1 hm
  have : ∃ r', tbl.rows.find? (fun r' => decide (r'.1 = r.1)) = some r' := by
    rw [← Option.isSome_iff_exists, List.find?_isSome]
    exact ⟨r, hr, by simp⟩
  obtain ⟨r', hr'⟩ := this
  rw [hr']
  obtain ⟨c, hc⟩ := find_zip tbl.temps r'.2 (h r' (List.mem_of_find?_eq_some hr')) t ht
  exact ⟨c.2, by simp only []; rw [hc]; rfl⟩

theorem at_range (tbl : MeltTable ℝ) (h : ∀ r ∈ tbl.rows, ∀ v ∈ r.2, 0 ≤ v ∧ v ≤ 1) (m t v : ℝ)
    (hv : tbl.at m t = some v) : 0 ≤ v ∧ v ≤ 1 := by
  unfold MeltTable.at at hv
  split at hv
  · cases hv
  · rename_i r hr
    obtain ⟨c, hc, rfl⟩ := Option.map_eq_some_iff.1 hv
    exact h r (List.mem_of_find?_eq_some hr) _ (List.of_mem_zip (List.mem_of_find?_eq_some hc)).2

/-- Mixing ratios at any distance on the Moon stay inside the shipped table. -/
theorem default_mixing (dist m : ℝ) (h0 : 0 < dist) (h1 : dist ≤ π * 1737400)
    (h : mixingRatio true 0.0183 0.87 (some dist) = some m) : 0 ≤ m ∧ m ≤ 39 := by
  have hp := pi_lt_d2
  have hd : dist * 1e-3 ≤ 2 ^ (13 : ℝ) := by norm_num; nlinarith
  have hpos : 0 ≤ dist * 1e-3 := by positivity
  have hk : (dist * 1e-3) ^ (0.87 : ℝ) ≤ 2897 := by
    calc (dist * 1e-3) ^ (0.87 : ℝ) ≤ (2 ^ (13 : ℝ)) ^ (0.87 : ℝ) :=
          rpow_le_rpow hpos hd (by norm_num)
      _ = 2 ^ (11.31 : ℝ) := by rw [← rpow_mul (by norm_num)]; norm_num
      _ ≤ 2 ^ (11.5 : ℝ) := rpow_le_rpow_of_exponent_le (by norm_num) (by norm_num)
      _ ≤ 2897 := by
        have h2 : ((2 : ℝ) ^ (11.5 : ℝ)) ^ 2 = 2 ^ 23 := by
          rw [← rpow_natCast, ← rpow_mul (by norm_num)]; norm_num
        nlinarith [rpow_pos_of_pos (show (0 : ℝ) < 2 by norm_num) 11.5]
  have hk0 : 0 ≤ (dist * 1e-3) ^ (0.87 : ℝ) := rpow_nonneg hpos _
  simp only [mixingRatio, if_true, Option.some.injEq] at h
  subst h
  split
  · constructor <;> nlinarith
  · constructor <;> nlinarith

theorem melt_labels : (0, List.replicate 81 (10 ^ 10)) ∈ meltFile ∧
    (39 * 10 ^ 10 ∈ meltFile.map (·.1)) ∧ 110 ∈ meltTemps ∧ 510 ∈ meltTemps := by decide +kernel

theorem default_covers (dist m : ℝ) (h0 : 0 < dist) (h1 : dist ≤ π * 1737400)
    (h : mixingRatio true 0.0183 0.87 (some dist) = some m) (t : ℝ) (ht : 110 ≤ t ∧ t ≤ 510) :
    ∃ m0 m1 t0 t1, InBlock shippedMelt m t m0 m1 t0 t1 := by
  obtain ⟨hm0, hm1⟩ := default_mixing dist m h0 h1 h
  obtain ⟨l1, l2, l3, l4⟩ := melt_labels
  obtain ⟨r, hr, hr1⟩ := List.mem_map.1 l2
  refine ⟨0, 39, 110, 510, ?_, ?_, ?_, ?_, hm0, hm1, ht.1, ht.2⟩
  · refine List.mem_map.2 ⟨_, List.mem_map_of_mem l1, by simp⟩
  · refine List.mem_map.2 ⟨_, List.mem_map_of_mem hr, ?_⟩
    show (r.1 : ℝ) / 10 ^ 10 = 39
    rw [hr1]; norm_num
  · exact List.mem_map.2 ⟨110, l3, by norm_num⟩
  · exact List.mem_map.2 ⟨510, l4, by norm_num⟩

/-! ## Configuration -/

theorem default_flux_decreasing (c : RunCfg) (hc : c.flux.neukum_pf_a_2001 = neukumA2001)
    (hc' : c.flux.neukum_pf_a_1983 = neukumA1983) (lo hi : ℝ) (h1 : 10 ≤ lo) (h2 : lo < hi)
    (h3 : hi ≤ 300000) : neukum c.flux hi ≤ neukum c.flux lo :=
  (C42_neukum_decreasing c.flux hc hc' lo hi h1 h2 h3).le

theorem default_physical (seed : Int) : PhysicalCfg (RunCfg.default seed) := by
  have hp := pi_pos
  have h1 : (RunCfg.default seed).flux.neukum_pf_a_2001 = neukumA2001 := rfl
  have h2 : (RunCfg.default seed).flux.neukum_pf_a_1983 = neukumA1983 := rfl
  have hdec := default_flux_decreasing _ h1 h2
  constructor
  case area => exact Or.inl ⟨rfl, by simp only [RunCfg.default]; norm_num⟩
  case regB => exact ⟨0.01, 3, 1e-4, -3.7, rfl, by norm_num, by norm_num, by norm_num, trivial⟩
  case regC =>
    exact ⟨100, 1.5e3, 1, -3.82, rfl, by norm_num, by norm_num, by norm_num,
      hdec _ _ (by norm_num) (by norm_num) (by norm_num), by simp only [RunCfg.default]; norm_num⟩
  case regD =>
    exact ⟨1.5e3, 15e3, 1e2, -1.8, rfl, by norm_num, by norm_num, by norm_num,
      hdec _ _ (by norm_num) (by norm_num) (by norm_num)⟩
  case regE =>
    exact ⟨15e3, 300e3, 1e3, -1.8, rfl, by norm_num, by norm_num, by norm_num,
      hdec _ _ (by norm_num) (by norm_num) (by norm_num)⟩
  all_goals simp only [RunCfg.default]
  all_goals first | (norm_num; done) | positivity

theorem cannon_physical (seed : Int) : PhysicalCfg (RunCfg.cannon seed) := by
  have h := default_physical seed
  exact { h with }

theorem hop_listed : ∀ n ∈ ["Haworth", "Shoemaker", "Faustini", "Shackleton", "Slater", "Amundsen",
    "Cabeus", "Sverdrup", "de Gerlache", "Idel'son L", "Wiechert J", "Cabeus B"],
    n ∈ hopFile.map (·.1) := by decide +kernel

theorem hop_nonneg : ∀ p ∈ hopFile, 0 ≤ p.2 := by decide +kernel

variable (nk : List (ℝ × ℝ)) (sortAges : CraterTable → CraterTable)
  (sortNk : List (ℝ × ℝ) → List (ℝ × ℝ)) (setOrder : List (List Char) → List (List Char))

theorem shipped_rows {r : RawCrater}
    (hr : r ∈ (shippedData nk sortAges sortNk setOrder).craters ++
      (shippedData nk sortAges sortNk setOrder).basins) :
    ∃ q ∈ craterFile ++ basinFile, r = q.read := by
  simp only [shippedData, ← List.map_append, List.mem_map] at hr
  obtain ⟨q, hq, rfl⟩ := hr
  exact ⟨q, hq, rfl⟩

theorem default_data (hs : Spec.SortDesc sortAges) (seed : Int) :
    PhysicalData (RunCfg.default seed) (shippedData nk sortAges sortNk setOrder) where
  solar := by
    intro _
    refine ⟨Or.inl (show "Benna".toLower = "benna" by decide +kernel), fun _ => ?_⟩
    refine ⟨by simpa [shippedData] using lum_nonneg.1, ?_⟩
    intro p hp
    obtain ⟨q, hq, rfl⟩ := List.mem_map.1 hp
    have := lum_nonneg.2 q hq
    simp only []
    exact_mod_cast this
  volc := by
    refine ⟨rfl, ?_⟩
    simp only [RunCfg.default]
    norm_num
  hops := by
    intro _ n hn
    obtain ⟨x, hx⟩ := PyDict.get_of_key (d := (shippedData nk sortAges sortNk setOrder).hop)
      (k := n) (by
        have := hop_listed n hn
        simp only [shippedData, List.map_map]
        exact this)
    refine ⟨x, hx, ?_⟩
    obtain ⟨q, hq, hq'⟩ := List.mem_map.1 (PyDict.mem_of_get hx)
    have h0 := hop_nonneg q hq
    have : x = (q.2 : ℝ) := (congrArg Prod.snd hq').symm
    rw [this]
    exact_mod_cast h0
  basins := by
    intro r hr
    obtain ⟨q, hq, rfl⟩ := List.mem_map.1 hr
    have := (file_bars q (by simp [hq])).2.2.2.1
    simp only [FileRow.read]
    exact_mod_cast this
  melt := at_range _ (fun r hr => (shippedMelt_rows r hr).2)
  lost := by simp only [RunCfg.default]; norm_num
  sorted := hs

theorem cannon_data (hs : Spec.SortDesc sortAges) (seed : Int) :
    PhysicalData (RunCfg.cannon seed) (shippedData nk sortAges sortNk setOrder) :=
  { default_data nk sortAges sortNk setOrder hs seed with
    solar := by intro h; cases h
    hops := by intro h; cases h }

theorem once_listed : ∀ n ∈ ["Haworth", "Shoemaker", "Faustini", "Shackleton", "Slater",
    "Amundsen", "Cabeus", "Sverdrup", "de Gerlache", "Idel'son L", "Wiechert J", "Cabeus B"],
    ((craterFile ++ basinFile).map (·.cname)).count n = 1 := by decide +kernel

theorem default_runnable (seed : Int) :
    Runnable (RunCfg.default seed) (shippedData nk sortAges sortNk setOrder) where
  names := by simp [RunCfg.default]
  nodup := by
    show (["Haworth", "Shoemaker", "Faustini", "Shackleton", "Slater", "Amundsen", "Cabeus",
      "Sverdrup", "de Gerlache", "Idel'son L", "Wiechert J", "Cabeus B"] : List String).Nodup
    decide +kernel
  start := by simp only [RunCfg.default]; norm_num
  span := by simp only [RunCfg.default]; norm_num
  bars := by
    intro r hr
    obtain ⟨q, hq, rfl⟩ := shipped_rows _ _ _ _ hr
    obtain ⟨a, b, c, -⟩ := file_bars q hq
    simp only [FileRow.read]
    exact ⟨by exact_mod_cast a, by exact_mod_cast b, by exact_mod_cast c⟩
  diam := by
    intro r hr
    obtain ⟨q, hq, rfl⟩ := shipped_rows _ _ _ _ hr
    have := (file_bars q hq).2.2.2.1
    simp only [FileRow.read]
    exact_mod_cast this
  once := by
    intro n hn
    have := once_listed n hn
    simp only [shippedData, ← List.map_append, List.map_map]
    exact this
  old := by
    intro r hr _
    obtain ⟨q, hq, rfl⟩ := shipped_rows _ _ _ _ hr
    have h := (file_bars q hq).2.2.2.2
    have : ((5 / 1000 : ℚ) : ℝ) < ((q.age - q.age_low : ℚ) : ℝ) := by exact_mod_cast h
    push_cast at this
    simp only [RunCfg.default, FileRow.read]
    norm_num
    linarith
  s2c := by simp only [RunCfg.default]; norm_num
  c2pr := by simp only [RunCfg.default]; norm_num
  angle90 := by simp only [RunCfg.default]; norm_num
  peak := by
    intro r hr hbig
    obtain ⟨q, hq, rfl⟩ := shipped_rows _ _ _ _ hr
    have h140 : (140 : ℝ) ≤ (q.diam : ℝ) := by
      simp only [RunCfg.default, FileRow.read] at hbig
      norm_num at hbig
      linarith
    obtain ⟨a, b, c⟩ := file_peak q hq (by exact_mod_cast h140)
    refine ⟨?_, ?_⟩
    · have : (q.diam : ℝ) ≤ 3474 := by exact_mod_cast a
      simp only [RunCfg.default, FileRow.read]
      norm_num
      linarith
    · intro t ht _ p hp
      obtain ⟨t', ht', rfl⟩ := shipped_rows _ _ _ _ ht
      obtain ⟨p', hp', rfl⟩ := Option.map_eq_some_iff.1 hp
      obtain ⟨d1, d2⟩ := c t' ht' p' hp'
      have key : listedDist q.read ((p'.1 : ℝ), (p'.2 : ℝ)) < π * 1737400 := by
        unfold listedDist
        have := angle_ne_pi (lat1 := (q.lat : ℝ)) (lon1 := (q.lon : ℝ)) (lat2 := (p'.1 : ℝ))
          (lon2 := (p'.2 : ℝ)) (by exact_mod_cast b) (by exact_mod_cast d1) (by exact_mod_cast d2)
        simp only [FileRow.read]
        linarith
      refine ⟨key, ?_⟩
      simp only [RunCfg.default]
      norm_num
      exact key
  covers := by
    intro _
    refine ⟨complete_of_rows _ (fun r hr => (shippedMelt_rows r hr).1), ?_, ?_, ?_⟩
    · simp [shippedData, shippedMelt, meltFile]
    · simp [shippedData, shippedMelt, meltTemps]
    · intro dist m h0 h1 h b t ht
      refine default_covers dist m h0 h1 h t ?_
      cases ht <;> norm_num [RunCfg.bsed, RunCfg.default]

theorem cannon_runnable (seed : Int) :
    Runnable (RunCfg.cannon seed) (shippedData nk sortAges sortNk setOrder) :=
  { default_runnable nk sortAges sortNk setOrder seed with
    covers := by intro h; cases h }

end MoonPIES
