import Verif.Spec.IceByModule
import Verif.Props.ImpactRun
import Verif.Lemmas.MainTotal

/-!
# Lemmas about the ice by module
-/

namespace MoonPIES

open Spec

variable {σ : Type}

theorem addArr_getD {a b : List ℝ} (h : a.length = b.length) (i : Nat) :
    (addArr a b).getD i 0 = a.getD i 0 + b.getD i 0 := by
  unfold addArr
  rw [List.getD_eq_getElem?_getD, List.getD_eq_getElem?_getD, List.getD_eq_getElem?_getD,
    List.getElem?_zipWith]
  by_cases hi : i < a.length
  · rw [List.getElem?_eq_getElem hi, List.getElem?_eq_getElem (h ▸ hi)]
    rfl
  · rw [List.getElem?_eq_none (by omega), List.getElem?_eq_none (by omega)]
    simp

theorem addArr_length {a b : List ℝ} {n : Nat} (h : a.length = n) (h' : b.length = n) :
    (addArr a b).length = n := by
  unfold addArr
  rw [List.length_zipWith, h, h', Nat.min_self]

theorem map_div_getD (l : List ℝ) (x : ℝ) (i : Nat) :
    (l.map (· / x)).getD i 0 = l.getD i 0 / x := by
  rw [List.getD_eq_getElem?_getD, List.getD_eq_getElem?_getD, List.getElem?_map]
  cases l[i]? <;> simp

theorem getElem?_of_getD {l : List ℝ} {i : Nat} {x : ℝ} (h : i < l.length)
    (hx : l.getD i 0 = x) : l[i]? = some x := by
  rw [List.getElem?_eq_getElem h]
  rw [List.getD_eq_getElem?_getD, List.getElem?_eq_getElem h] at hx
  exact congrArg some hx

theorem getD_of_getElem? {l : List ℝ} {i : Nat} {x : ℝ} (h : l[i]? = some x) :
    l.getD i 0 = x := by
  rw [List.getD_eq_getElem?_getD, h]; rfl

/-! ## Changing the seed -/

theorem physical_reseed {c : RunCfg} (h : PhysicalCfg c) (a n : Int) :
    PhysicalCfg (c.reseed a n) := { h with }

theorem data_reseed {c : RunCfg} {d : RunData} (h : PhysicalData c d) (a n : Int) :
    PhysicalData (c.reseed a n) d := { h with }

theorem runnable_reseed {c : RunCfg} {d : RunData} (h : Runnable c d) (a n : Int) :
    Runnable (c.reseed a n) d := { h with }

theorem data_comet {c : RunCfg} {d : RunData} (h : PhysicalData c d) :
    PhysicalData c.comet d := { h with }

theorem runnable_comet {c : RunCfg} {d : RunData} (h : Runnable c d) :
    Runnable c.comet d := { h with }

theorem craterBasinList_comet (g : Gen σ) (c : RunCfg) (d : RunData) (s : σ) :
    craterBasinList g c.comet d s = craterBasinList g c d s := rfl

/-! ## One table -/

/-- What is known of the modules computed from a crater table and a state. -/
structure TableOf (g : Gen σ) (c : RunCfg) (d : RunData) (df : CraterTable) (time : List ℝ) (s : σ)
    (t : ModuleTable) : Prop where
  lens : ∀ k, (t k).length = time.length
  time_eq : t .time = time
  volc : volcanicIce c.volc_mode c.ice c.head (fun x => (roundHalfEven x : ℝ)) d.sortNk
    RunCfg.rtol c.timestep time d.nk = .ok (t .volcanic)
  solar : solarWindIce c.solar (readLuminosity d.lum) time = .ok (t .solar)
  impact : ∃ s' a m, nonBasinIce g c time s = .ok (a, s') ∧
    (∃ s'', iceBasins g c df time s' = .ok (m, s'')) ∧ thicknessOf c m = .ok (t .basin) ∧
    a.length = time.length ∧ ∀ i : Nat, a.getD i 0 = (impactorKeys.map (fun k => (t k).getD i 0)).sum
  gard : t .gardening = overturnDepth c.overturn time
  bsed : aggBsedDepth c d df time = .ok (t .bsed)

theorem overturn_length (c : OverturnCfg ℝ) (time : List ℝ) :
    (overturnDepth c time).length = time.length := by
  unfold overturnDepth; split <;> simp

theorem mapM_rowMean (l : List (List ℝ)) (h : ∀ x ∈ l, x ≠ []) :
    l.mapM rowMean = .ok (l.map (fun x => x.sum / x.length)) := by
  induction l with
  | nil => rfl
  | cons x l ih =>
    rw [List.mapM_cons, ih (fun y hy => h y (by simp [hy]))]
    unfold rowMean
    rw [if_neg (h x (by simp))]
    rfl

theorem aggBsed_ok {c : RunCfg} {d : RunData} {df : CraterTable} (hc : PhysicalCfg c)
    (hd : PhysicalData c d) (hr : Runnable c d) (hg : GoodTable c d df) (time : List ℝ)
    (hne : time ≠ []) : ∃ b, aggBsedDepth c d df time = .ok b ∧ b.length = time.length ∧
      ∃ dists thick bd bf,
        coldtrapDists c.ej (df.map (·.rest.crater)) c.coldtrap_names = .ok dists ∧
        thicknessMatrix c df dists = .ok thick ∧
        bsedArrays c d time df dists thick = .ok (bd, bf) ∧
        ∀ (i : Nat) depth frac, bd[i]? = some depth → bf[i]? = some frac →
          depth.length = c.coldtrap_names.length ∧ frac.length = c.coldtrap_names.length ∧
          b[i]? = some ((List.zipWith (· * ·) depth frac).sum / c.coldtrap_names.length) := by
  obtain ⟨m, h3⟩ := coldtrapDists_ok hr hg
  obtain ⟨th, h4, -, -⟩ := thicknessMatrix_ok hc hr hg m h3
  obtain ⟨bd, bf, h6⟩ := bsedArrays_ok hd hr hg m h3 time hne th
  obtain ⟨l1, l2, l3, l4, -⟩ := bsedArrays_ok_inv c d hd time hne df m th bd bf h6
  have hlen : ∀ l ∈ List.zipWith (fun a b : List ℝ => List.zipWith (· * ·) a b) bd bf,
      l.length = c.coldtrap_names.length := by
    intro l hl
    rw [← List.map_uncurry_zip_eq_zipWith] at hl
    obtain ⟨p, hp, rfl⟩ := List.mem_map.1 hl
    have := List.of_mem_zip hp
    simp only [Function.uncurry, List.length_zipWith, l3 _ this.1, l4 _ this.2, Nat.min_self]
  have hmap : (List.zipWith (fun a b : List ℝ => List.zipWith (· * ·) a b) bd bf).mapM rowMean =
      .ok ((List.zipWith (fun a b : List ℝ => List.zipWith (· * ·) a b) bd bf).map
        (fun l => l.sum / l.length)) := by
    apply mapM_rowMean
    intro l hl h0
    have := hlen _ hl
    rw [h0] at this
    exact hr.names (List.length_eq_zero_iff.1 this.symm)
  refine ⟨(List.zipWith (fun a b : List ℝ => List.zipWith (· * ·) a b) bd bf).map
    (fun l => l.sum / l.length), ?_, ?_, m, th, bd, bf, h3, h4, h6, ?_⟩
  · unfold aggBsedDepth
    simp only [bind, Except.bind, h3, h4, h6, liftPy]
    exact hmap
  · simp [l1, l2]
  · intro i depth frac e1 e2
    have q1 := l3 _ (List.mem_of_getElem? e1)
    have q2 := l4 _ (List.mem_of_getElem? e2)
    refine ⟨q1, q2, ?_⟩
    rw [List.getElem?_map, List.getElem?_zipWith, e1, e2]
    simp [q1, q2]

theorem iceByModule_ok (g : Gen σ) (hgen : LawfulGen g) {c : RunCfg} {d : RunData}
    {df : CraterTable} (hc : PhysicalCfg c) (hd : PhysicalData c d) (hr : Runnable c d)
    (hg : GoodTable c d df)
    (hrad : ∀ r ∈ df, r.rest.crater.isbasin = true → 0 < r.rest.crater.rad) (time : List ℝ)
    (hne : time ≠ []) (s : σ) :
    ∃ t, iceByModule g c d df time s = .ok t ∧ TableOf g c d df time s t := by
  obtain ⟨v, v1, v2⟩ := volcanicIce_ok hc hd time
  obtain ⟨w, w1, w2⟩ := solarWindIce_ok hc hd time
  obtain ⟨a1, e1, n1⟩ := thicknessOf_nn hc (followsFlux_nn (C42_micrometeorites c.flux time)
    (C42_micrometeorites_nonneg c.flux (physical_flux hc)))
  obtain ⟨mind, maxd, step, slope, er, h0, hs, hst, -⟩ := hc.regB
  obtain ⟨today, t0, ht⟩ := C42_small_impactors c.flux (physical_flux hc) mind maxd step slope er
    h0 hs hst
  obtain ⟨m2, b2, f2⟩ := ht time
  obtain ⟨a2, e2, n2⟩ := thicknessOf_nn hc (followsFlux_nn f2 t0)
  obtain ⟨mind, maxd, step, slope, er, h0, hs, hst, hN, hle⟩ := hc.regC
  obtain ⟨today', t0', ht'⟩ := C42_small_craters c.flux (physical_flux hc) mind maxd step slope er
    h0 hs hst hN hc.mean hc.rho hc.trho hc.grav hle hc.s2c.2
  obtain ⟨m3, b3, f3⟩ := ht' time
  obtain ⟨a3, e3, n3⟩ := thicknessOf_nn hc (followsFlux_nn f3 t0')
  obtain ⟨m4, s4, b4, l4, k4⟩ := iceStochastic_ok g hgen hc time "d" (by simp) s
  obtain ⟨a4, e4, n4⟩ := thicknessOf_nn hc (show NNArr time.length m4 from ⟨l4, k4⟩)
  obtain ⟨m5, s5, b5, l5, k5⟩ := iceStochastic_ok g hgen hc time "e" (by simp) s4
  obtain ⟨a5, e5, n5⟩ := thicknessOf_nn hc (show NNArr time.length m5 from ⟨l5, k5⟩)
  obtain ⟨m6, s6, b6, n6⟩ := iceBasins_ok g hgen hc df hrad time hne s5
  obtain ⟨a6, e6, n6'⟩ := thicknessOf_nn hc n6
  obtain ⟨bs, q1, q2, -⟩ := aggBsed_ok hc hd hr hg time hne
  refine ⟨moduleTable time v w a1 a2 a3 a4 a5 a6 (overturnDepth c.overturn time) bs, ?_, ?_⟩
  · unfold iceByModule
    simp only [bind, Except.bind, v1, w1, e1, b2, e2, b3, e3, b4, e4, b5, e5, b6, e6, q1, liftPy]
  · refine ⟨?_, rfl, v1, w1, ⟨s5, addArr (addArr (addArr (addArr (addArr (time.map (fun _ => 0))
      a1) a2) a3) a4) a5, m6, ?_, ⟨s6, b6⟩, e6, ?_, ?_⟩, rfl, q1⟩
    · intro k
      cases k
      exacts [rfl, v2.1, w2.1, n1.1, n2.1, n3.1, n4.1, n5.1, n6'.1, overturn_length _ _, q2]
    · unfold nonBasinIce
      simp only [bind, Except.bind, e1, b2, e2, b3, e3, b4, e4, b5, e5]
    · exact (addArr_nn (addArr_nn (addArr_nn (addArr_nn (addArr_nn ⟨List.length_map _, fun x hx => by
        obtain ⟨_, _, rfl⟩ := List.mem_map.1 hx; exact le_refl _⟩ n1) n2) n3) n4) n5).1
    · intro i
      have z : (time.map (fun _ => (0 : ℝ))).length = time.length := List.length_map _
      have z0 : (time.map (fun _ => (0 : ℝ))).getD i 0 = 0 := by
        rw [List.getD_eq_getElem?_getD, List.getElem?_map]; cases time[i]? <;> rfl
      have y1 := addArr_length z n1.1
      have y2 := addArr_length y1 n2.1
      have y3 := addArr_length y2 n3.1
      have y4 := addArr_length y3 n4.1
      rw [addArr_getD (y4.trans n5.1.symm), addArr_getD (y3.trans n4.1.symm),
        addArr_getD (y2.trans n3.1.symm), addArr_getD (y1.trans n2.1.symm),
        addArr_getD (z.trans n1.1.symm), z0]
      simp only [impactorKeys, moduleTable, List.map_cons, List.map_nil, List.sum_cons, List.sum_nil]
      ring

/-! ## All seeds -/

theorem foldl_add_getD (ts : List ModuleTable) (n : Nat) (k : ModCol) (i : Nat) :
    ∀ acc : ModuleTable, (acc k).length = n → (∀ t ∈ ts, (t k).length = n) →
      ((ts.foldl ModuleTable.add acc) k).length = n ∧
      ((ts.foldl ModuleTable.add acc) k).getD i 0 =
        (acc k).getD i 0 + (ts.map (fun t => (t k).getD i 0)).sum := by
  induction ts with
  | nil => intro acc h _; exact ⟨h, by simp⟩
  | cons t ts ih =>
    intro acc h hts
    have ht := hts t (by simp)
    obtain ⟨h1, h2⟩ := ih (acc.add t) (addArr_length h ht) (fun u hu => hts u (by simp [hu]))
    refine ⟨h1, ?_⟩
    rw [List.foldl_cons, h2, List.map_cons, List.sum_cons]
    change (addArr (acc k) (t k)).getD i 0 + _ = _
    rw [addArr_getD (h.trans ht.symm)]
    ring

/-- The numbers used as seeds, counting from `i`. -/
def seedsFrom (draw : Nat → Int) (i : Nat) (seeds : List Int) : List Int :=
  seeds.mapIdx (fun j n => if n = 0 then draw (i + j) else n)

theorem seedsFrom_cons (draw : Nat → Int) (i : Nat) (n : Int) (seeds : List Int) :
    seedsFrom draw i (n :: seeds) = (if n = 0 then draw i else n) :: seedsFrom draw (i + 1) seeds := by
  unfold seedsFrom
  rw [List.mapIdx_cons]
  congr 1
  congr 1
  funext j m
  rw [show i + (j + 1) = i + 1 + j by omega]

theorem seedsFrom_length (draw : Nat → Int) (i : Nat) (seeds : List Int) :
    (seedsFrom draw i seeds).length = seeds.length := by simp [seedsFrom]

theorem seedLoop_inv (g : Gen σ) (c : RunCfg) (d : RunData) (draw : Nat → Int) (time : List ℝ) :
    ∀ (seeds : List Int) (i : Nat) (acc out : ModuleTable × ModuleTable),
      seedLoop g c d draw time i seeds acc = .ok out →
      ∃ ts : List (ModuleTable × ModuleTable),
        List.Forall₂ (fun n t => freshModules g { c with seed := n } d time = .ok t.1 ∧
          freshModules g ({ c with seed := n } : RunCfg).comet d time = .ok t.2)
          (seedsFrom draw i seeds) ts ∧
        out = ((ts.map (·.1)).foldl ModuleTable.add acc.1,
          (ts.map (·.2)).foldl ModuleTable.add acc.2) := by
  intro seeds
  induction seeds with
  | nil =>
    intro i acc out h
    cases h
    exact ⟨[], List.Forall₂.nil, rfl⟩
  | cons n seeds ih =>
    intro i acc out h
    unfold seedLoop at h
    simp only [] at h
    obtain ⟨a, h1, h⟩ := bind_ok_inv h
    obtain ⟨k, h2, h⟩ := bind_ok_inv h
    obtain ⟨ts, f, rfl⟩ := ih _ _ _ h
    refine ⟨(a, k) :: ts, ?_, rfl⟩
    rw [seedsFrom_cons]
    exact List.Forall₂.cons ⟨h1, h2⟩ f

theorem seedLoop_ok (g : Gen σ) (c : RunCfg) (d : RunData) (draw : Nat → Int) (time : List ℝ)
    (h : ∀ a n, (∃ t, freshModules g (c.reseed a n) d time = .ok t) ∧
      ∃ t, freshModules g (c.reseed a n).comet d time = .ok t) :
    ∀ (seeds : List Int) (i : Nat) (acc : ModuleTable × ModuleTable),
      ∃ out, seedLoop g c d draw time i seeds acc = .ok out := by
  intro seeds
  induction seeds with
  | nil => intro i acc; exact ⟨acc, rfl⟩
  | cons n seeds ih =>
    intro i acc
    obtain ⟨⟨a, h1⟩, k, h2⟩ := h (draw i) n
    obtain ⟨out, h3⟩ := ih (i + 1) (acc.1.add a, acc.2.add k)
    refine ⟨out, ?_⟩
    unfold seedLoop
    simp only [bind, Except.bind, h1, h2, h3]

theorem freshModules_ok (g : Gen σ) (hgen : LawfulGen g) {c : RunCfg} {d : RunData}
    (hc : PhysicalCfg c) (hd : PhysicalData c d) (hr : Runnable c d) (time : List ℝ)
    (hne : time ≠ []) :
    ∃ df s t, craterBasinList g c d (g.init c.seed) = .ok (df, s) ∧ GoodTable c d df ∧
      freshModules g c d time = .ok t ∧ TableOf g c d df time s t := by
  obtain ⟨df, s1, h2, p1, p2⟩ := craterBasinList_ok g hgen hc hd hr (g.init c.seed)
  have hg : GoodTable c d df := ⟨p1, p2⟩
  obtain ⟨t, h3, h4⟩ := iceByModule_ok g hgen hc hd hr hg
    (craterBasinList_rad g hd _ _ df h2) time hne s1
  refine ⟨df, s1, t, h2, hg, ?_, h4⟩
  unfold freshModules
  simp only [bind, Except.bind, h2, h3, liftPy]

/-! ## Basins without ice -/

theorem icyRows_off (g : Gen σ) {c : RunCfg} (d : RunData) (hs : SortDesc d.sortAges)
    (hb : c.impact_ice_basins = false) (df : CraterTable) (s s' : σ)
    (h : craterBasinList g c d s = .ok (df, s')) : icyRows c df = [] := by
  have hno : ∀ r ∈ df, r.rest.icy = "no" := by
    intro r hr
    obtain ⟨q, hq, e⟩ := List.mem_map.1
      ((run_rest _ c d hs _ _ df h).mem_iff.1 (List.mem_map_of_mem hr))
    rw [← e]
    unfold rawTable at hq
    rcases List.mem_append.1 hq with hq | hq
    · obtain ⟨raw, -, rfl⟩ := List.mem_map.1 hq
      rfl
    · rw [← List.map_uncurry_zip_eq_zipWith] at hq
      obtain ⟨p, hp, rfl⟩ := List.mem_map.1 hq
      exact icy_off c.imp hb _ _ (List.of_mem_zip hp).2
  unfold icyRows
  simp only []
  rw [List.filter_eq_nil_iff]
  intro r hr
  rw [hno r hr]
  cases c.is_comet <;> simp

theorem iceBasins_nil (g : Gen σ) (c : RunCfg) (df : CraterTable) (time : List ℝ) (s s' : σ)
    (m : List ℝ) (hnil : icyRows c df = []) (h : iceBasins g c df time s = .ok (m, s')) :
    ∀ x ∈ m, x = 0 := by
  unfold iceBasins at h
  simp only [hnil] at h
  obtain ⟨v, -, h⟩ := bind_ok_inv h
  obtain ⟨ms, h1, h⟩ := bind_ok_inv h
  obtain ⟨o, h2, h⟩ := bind_ok_inv h
  cases h
  cases h1
  by_cases hne : time = []
  · subst hne
    unfold ages2time at h2
    simp [bind, Except.bind, minmaxRtol] at h2
  · obtain ⟨out, e1, e2, e3⟩ := ages2time_spec RunCfg.rtol time hne
      ([] : List (ℝ × ℝ)) (· + ·) (0 : ℝ)
    have : out = m := by
      have h2' : ages2time RunCfg.rtol time ([] : List (ℝ × ℝ)) (· + ·) (0 : ℝ) = .ok m := h2
      rw [e1] at h2'
      cases h2'
      rfl
    subst this
    intro x hx
    obtain ⟨i, hi⟩ := List.mem_iff_getElem?.1 hx
    have hil : i < time.length := by rw [← e2]; exact (List.getElem?_eq_some_iff.1 hi).1
    rw [e3 i hil] at hi
    cases hi
    rfl

/-- The sum of the impact columns is what `get_impact_ice` returns. -/
theorem table_impact (g : Gen σ) {c : RunCfg} {d : RunData} (hc : PhysicalCfg c)
    (hs : SortDesc d.sortAges) {df : CraterTable} {time : List ℝ} {s0 s : σ} {t : ModuleTable}
    (h : craterBasinList g c d s0 = .ok (df, s)) (ht : TableOf g c d df time s t) :
    ∃ a s', impactIce g c df time s = .ok (a, s') ∧ a.length = time.length ∧
      ∀ i : Nat, a.getD i 0 = (impactorKeys.map (fun k => (t k).getD i 0)).sum +
        (t .basin).getD i 0 := by
  obtain ⟨s', a, m, h1, ⟨s'', h2⟩, h3, h4, h5⟩ := ht.impact
  have hbl := ht.lens .basin
  by_cases hb : c.impact_ice_basins = true
  · refine ⟨addArr a (t .basin), s'', ?_, addArr_length h4 hbl, fun i => ?_⟩
    · unfold impactIce
      simp only [bind, Except.bind, h1, h2, h3, hb, if_true]
    · rw [addArr_getD (h4.trans hbl.symm), h5]
  · have hb' : c.impact_ice_basins = false := by simpa using hb
    refine ⟨a, s'', ?_, h4, fun i => ?_⟩
    · unfold impactIce
      simp only [bind, Except.bind, h1, h2, h3, hb', Bool.false_eq_true, if_false]
    · have hz := iceBasins_nil g c df time s' s'' m (icyRows_off g d hs hb' df s0 s h) h2
      rw [thicknessOf_eq hc] at h3
      injection h3 with h3
      have : ∀ x ∈ t .basin, x = 0 := by
        intro x hx
        rw [← h3] at hx
        obtain ⟨y, hy, rfl⟩ := List.mem_map.1 hx
        rw [hz y hy, mul_zero]
      rw [h5]
      have h0 : (t .basin).getD i 0 = 0 := by
        rw [List.getD_eq_getElem?_getD]
        cases e : (t .basin)[i]? with
        | none => rfl
        | some x => exact this x (List.mem_of_getElem? e)
      rw [h0, add_zero]

/-- The modules of a seed are those of a complete run with that seed. -/
theorem seed_modules (g : Gen σ) (hgen : LawfulGen g) {c : RunCfg} {d : RunData}
    (hc : PhysicalCfg c) (hd : PhysicalData c d) (hr : Runnable c d) {time : List ℝ}
    (htime : getTimeArray c.timestart c.timeend c.timestep = .ok time) (hne : time ≠ [])
    {t u : ModuleTable} (h1 : freshModules g c d time = .ok t)
    (h2 : freshModules g c.comet d time = .ok u) :
    ∃ a k b, SeedRun g c d time a k b ∧ (∀ i : Nat,
        a.getD i 0 = (impactorKeys.map (fun j => (t j).getD i 0)).sum + (t .basin).getD i 0 ∧
        k.getD i 0 = (impactorKeys.map (fun j => (u j).getD i 0)).sum + (u .basin).getD i 0) ∧
      (∀ j, (t j).length = time.length ∧ (u j).length = time.length) ∧
      t .time = time ∧ u .time = time ∧
      volcanicIce c.volc_mode c.ice c.head (fun x => (roundHalfEven x : ℝ)) d.sortNk
        RunCfg.rtol c.timestep time d.nk = .ok (t .volcanic) ∧ u .volcanic = t .volcanic ∧
      solarWindIce c.solar (readLuminosity d.lum) time = .ok (t .solar) ∧ u .solar = t .solar ∧
      t .gardening = overturnDepth c.overturn time ∧ u .gardening = overturnDepth c.overturn time ∧
      t .bsed = b ∧ u .bsed = b := by
  obtain ⟨df, s, t', p1, hg, p2, p3⟩ := freshModules_ok g hgen hc hd hr time hne
  obtain ⟨df', s', u', q1, -, q2, q3⟩ := freshModules_ok g hgen (physical_comet hc) (data_comet hd)
    (runnable_comet hr) time hne
  rw [h1] at p2
  cases p2
  rw [h2] at q2
  cases q2
  have q1' : craterBasinList g c d (g.init c.seed) = .ok (df', s') := q1
  rw [p1] at q1'
  cases q1'
  obtain ⟨a, s1, a1, a2, a3⟩ := table_impact g hc hd.sorted p1 p3
  obtain ⟨k, s2, k1, k2, k3⟩ := table_impact g (physical_comet hc) hd.sorted q1 q3
  obtain ⟨b, b1, b2, dists, thick, bd, bf, b3, b4, b5, b6⟩ := aggBsed_ok hc hd hr hg time hne
  have b7 : t .bsed = b := by
    have := p3.bsed
    rw [b1] at this
    cases this
    rfl
  have b8 : u .bsed = b := by
    have : aggBsedDepth c d df time = .ok (u .bsed) := q3.bsed
    rw [b1] at this
    cases this
    rfl
  obtain ⟨st, st1, -, -⟩ := setup_ok g hgen hc hd hr
  obtain ⟨s1', s2', dists', thick', r1, r2, r3, r4, -, r5, -⟩ := setup_inv g c d st st1
  have e1 : st.time = time := by rw [htime] at r1; cases r1; rfl
  have e2 : st.df = df ∧ s1' = s := by rw [p1] at r2; cases r2; exact ⟨rfl, rfl⟩
  have e3 : dists' = dists := by rw [e2.1, b3] at r3; cases r3; rfl
  have e4 : thick' = thick := by rw [e2.1, e3, b4] at r4; cases r4; rfl
  have e5 : st.bsedDepth = bd ∧ st.bsedFrac = bf := by
    rw [e1, e2.1, e3, e4, b5] at r5; cases r5; exact ⟨rfl, rfl⟩
  refine ⟨a, k, b, ⟨⟨a2, k2, b2⟩, st, s, st1, e1, ?_, ⟨s1, ?_⟩, ⟨s2, ?_⟩, ?_⟩,
    fun i => ⟨a3 i, k3 i⟩, fun j => ⟨p3.lens j, q3.lens j⟩, p3.time_eq, q3.time_eq, p3.volc, ?_,
    p3.solar, ?_, p3.gard, q3.gard, b7, b8⟩
  · rw [e2.1]; exact p1
  · rw [e2.1]; exact a1
  · rw [e2.1]; exact k1
  · rw [e5.1, e5.2]; exact b6
  · have h3 := p3.volc
    have h4 : volcanicIce c.volc_mode c.ice c.head (fun x => (roundHalfEven x : ℝ)) d.sortNk
      RunCfg.rtol c.timestep time d.nk = .ok (u .volcanic) := q3.volc
    rw [h3] at h4
    injection h4 with h4
    exact h4.symm
  · have h3 := p3.solar
    have h4 : solarWindIce c.solar (readLuminosity d.lum) time = .ok (u .solar) := q3.solar
    rw [h3] at h4
    injection h4 with h4
    exact h4.symm

theorem forall₂_split {α β γ : Type} {R : α → β → Prop} {P : α → γ → Prop} {Q : β → γ → Prop}
    {l : List α} {ts : List β} (h : List.Forall₂ R l ts)
    (hs : ∀ a b, R a b → ∃ c, P a c ∧ Q b c) :
    ∃ rs, List.Forall₂ P l rs ∧ List.Forall₂ Q ts rs := by
  induction h with
  | nil => exact ⟨[], List.Forall₂.nil, List.Forall₂.nil⟩
  | cons hr _ ih =>
    obtain ⟨c, h1, h2⟩ := hs _ _ hr
    obtain ⟨rs, h3, h4⟩ := ih
    exact ⟨c :: rs, List.Forall₂.cons h1 h3, List.Forall₂.cons h2 h4⟩

theorem forall₂_sum {β γ : Type} {Q : β → γ → Prop} {ts : List β} {rs : List γ}
    (h : List.Forall₂ Q ts rs) (f : β → ℝ) (e : γ → ℝ) (he : ∀ t r, Q t r → f t = e r) :
    (ts.map f).sum = (rs.map e).sum := by
  induction h with
  | nil => rfl
  | cons hq _ ih => rw [List.map_cons, List.map_cons, List.sum_cons, List.sum_cons, ih, he _ _ hq]

theorem forall₂_right {β γ : Type} {Q : β → γ → Prop} {ts : List β} {rs : List γ}
    (h : List.Forall₂ Q ts rs) : ∀ t ∈ ts, ∃ r, Q t r := by
  induction h with
  | nil => intro t ht; cases ht
  | cons hq _ ih =>
    intro t ht
    rcases List.mem_cons.1 ht with rfl | ht
    · exact ⟨_, hq⟩
    · exact ih t ht

theorem foldl_addArr_getD (ls : List (List ℝ)) (n i : Nat) : ∀ acc : List ℝ, acc.length = n →
    (∀ l ∈ ls, l.length = n) → (ls.foldl addArr acc).length = n ∧
      (ls.foldl addArr acc).getD i 0 = acc.getD i 0 + (ls.map (fun l => l.getD i 0)).sum := by
  induction ls with
  | nil => intro acc h _; exact ⟨h, by simp⟩
  | cons l ls ih =>
    intro acc h hl
    have h1 := hl l (by simp)
    obtain ⟨h2, h3⟩ := ih (addArr acc l) (addArr_length h h1) (fun x hx => hl x (by simp [hx]))
    refine ⟨h2, ?_⟩
    rw [List.foldl_cons, h3, addArr_getD (h.trans h1.symm), List.map_cons, List.sum_cons]
    ring

theorem zeros_getD {α : Type} (l : List α) (i : Nat) : (l.map (fun _ => (0 : ℝ))).getD i 0 = 0 := by
  rw [List.getD_eq_getElem?_getD, List.getElem?_map]; cases l[i]? <;> rfl

theorem sumCols_getD (t : ModuleTable) (keys : List ModCol) (n i : Nat)
    (h : ∀ k, (t k).length = n) : (sumCols t keys).length = n ∧
      (sumCols t keys).getD i 0 = (keys.map (fun k => (t k).getD i 0)).sum := by
  obtain ⟨h1, h2⟩ := foldl_addArr_getD (keys.map t) n i ((t .time).map (fun _ => 0))
    (by rw [List.length_map, h]) (by intro l hl; obtain ⟨k, -, rfl⟩ := List.mem_map.1 hl; exact h k)
  refine ⟨h1, ?_⟩
  unfold sumCols
  rw [h2, zeros_getD, List.map_map, zero_add]
  rfl

/-- What `_get_ice_ast_comet_seeds` returns in terms of the tables of the seeds. -/
theorem astCometSeeds_inv (g : Gen σ) (c : RunCfg) (d : RunData) (draw : Nat → Int)
    (seeds : List Int) (t : ModuleTable) (h : astCometSeeds g c d draw seeds = .ok t) :
    ∃ time ts, getTimeArray c.timestart c.timeend c.timestep = .ok time ∧ seeds ≠ [] ∧
      List.Forall₂ (fun n (t : ModuleTable × ModuleTable) =>
        freshModules g { c with seed := n } d time = .ok t.1 ∧
          freshModules g ({ c with seed := n } : RunCfg).comet d time = .ok t.2)
        (usedSeeds draw seeds) ts ∧
      ((∀ x ∈ ts, ∀ k, (x.1 k).length = time.length ∧ (x.2 k).length = time.length) →
        ∀ k, (t k).length = time.length ∧ ∀ i : Nat, (t k).getD i 0 =
          if k = .time then (ts.map (fun x => (x.1 k).getD i 0)).sum / seeds.length
          else ((ts.map (fun x => (x.1 k).getD i 0)).sum / seeds.length +
            (ts.map (fun x => (x.2 k).getD i 0)).sum / seeds.length) /
              (if k ∈ lossKeys then 2 else 1)) := by
  unfold astCometSeeds at h
  obtain ⟨time, h1, h⟩ := bind_ok_inv h
  simp only [] at h
  obtain ⟨⟨adf, cdf⟩, h2, h⟩ := bind_ok_inv h
  obtain ⟨ts, h3, h4⟩ := seedLoop_inv g c d draw time seeds 0 _ _ h2
  simp only [Prod.mk.injEq] at h4
  simp only [] at h
  split at h
  · cases h
  rename_i hne
  split at h
  swap
  · cases h
  injection h with h
  have hu : seedsFrom draw 0 seeds = usedSeeds draw seeds := by
    unfold seedsFrom usedSeeds
    congr 1
    funext j n
    rw [Nat.zero_add]
  rw [hu] at h3
  refine ⟨time, ts, liftPy_ok h1, hne, h3, ?_⟩
  intro hl k
  have ha : ∀ i, (adf k).length = time.length ∧ (adf k).getD i 0 =
      (ts.map (fun x => (x.1 k).getD i 0)).sum := by
    intro i
    obtain ⟨e1, e2⟩ := foldl_add_getD (ts.map (·.1)) time.length k i
      (fun _ => time.map (fun _ => (0 : ℝ))) (List.length_map _) (by
        intro x hx; obtain ⟨y, hy, rfl⟩ := List.mem_map.1 hx; exact (hl y hy k).1)
    rw [← h4.1] at e1 e2
    refine ⟨e1, ?_⟩
    rw [e2, zeros_getD, List.map_map, zero_add]
    rfl
  have hb : ∀ i, (cdf k).length = time.length ∧ (cdf k).getD i 0 =
      (ts.map (fun x => (x.2 k).getD i 0)).sum := by
    intro i
    obtain ⟨e1, e2⟩ := foldl_add_getD (ts.map (·.2)) time.length k i
      (fun _ => time.map (fun _ => (0 : ℝ))) (List.length_map _) (by
        intro x hx; obtain ⟨y, hy, rfl⟩ := List.mem_map.1 hx; exact (hl y hy k).2)
    rw [← h4.2] at e1 e2
    refine ⟨e1, ?_⟩
    rw [e2, zeros_getD, List.map_map, zero_add]
    rfl
  have l1 : (adf.div seeds.length k).length = time.length := by
    unfold ModuleTable.div; rw [List.length_map]; exact (ha 0).1
  have l2 : (cdf.div seeds.length k).length = time.length := by
    unfold ModuleTable.div; rw [List.length_map]; exact (hb 0).1
  have g1 : ∀ i, (adf.div seeds.length k).getD i 0 =
      (ts.map (fun x => (x.1 k).getD i 0)).sum / seeds.length := by
    intro i; unfold ModuleTable.div; rw [map_div_getD, (ha i).2]
  have g2 : ∀ i, (cdf.div seeds.length k).getD i 0 =
      (ts.map (fun x => (x.2 k).getD i 0)).sum / seeds.length := by
    intro i; unfold ModuleTable.div; rw [map_div_getD, (hb i).2]
  rw [← h]
  simp only []
  by_cases hk : k = .time
  · subst hk
    rw [if_pos rfl]
    exact ⟨l1, fun i => by rw [g1 i]; simp⟩
  · rw [if_neg hk]
    by_cases hm : k ∈ lossKeys
    · rw [if_pos hm, if_pos hm]
      refine ⟨by rw [List.length_map]; exact addArr_length l1 l2, fun i => ?_⟩
      rw [map_div_getD, addArr_getD (l1.trans l2.symm), g1, g2, if_neg hk]
    · rw [if_neg hm, if_neg hm]
      refine ⟨addArr_length l1 l2, fun i => ?_⟩
      rw [addArr_getD (l1.trans l2.symm), g1, g2, if_neg hk, div_one]

theorem mean_const {α : Type} (l : List α) (f : α → ℝ) (x : ℝ) (n : Nat) (hn : l.length = n)
    (h0 : n ≠ 0) (h : ∀ a ∈ l, f a = x) : (l.map f).sum / n = x := by
  have : l.map f = l.map (fun _ => x) := List.map_congr_left h
  rw [this, List.map_const', List.sum_replicate, hn, nsmul_eq_mul]
  have : (n : ℝ) ≠ 0 := Nat.cast_ne_zero.2 h0
  field_simp

/-- A seed of 0 stands for the number drawn in its place. -/
theorem usedSeeds_loop (g : Gen σ) (c : RunCfg) (d : RunData) (draw draw' : Nat → Int)
    (time : List ℝ) (hdr : ∀ i, draw i ≠ 0) : ∀ (seeds : List Int) (i j : Nat) acc,
      seedLoop g c d draw time i seeds acc = seedLoop g c d draw' time j (seedsFrom draw i seeds) acc := by
  intro seeds
  induction seeds with
  | nil => intro i j acc; rfl
  | cons n seeds ih =>
    intro i j acc
    rw [seedsFrom_cons]
    unfold seedLoop
    have : c.reseed (draw' j) (if n = 0 then draw i else n) = c.reseed (draw i) n := by
      unfold RunCfg.reseed
      by_cases hn : n = 0
      · rw [if_pos hn, if_neg (hdr i)]
      · rw [if_neg hn, if_neg hn]
    rw [this]
    simp only [ih (i + 1) (j + 1)]

theorem default_time (seed : Int) : ∃ time, getTimeArray (RunCfg.default seed).timestart
    (RunCfg.default seed).timeend (RunCfg.default seed).timestep = .ok time ∧
      time = uniformGrid (RunCfg.default seed).timestart (RunCfg.default seed).timestep 425 :=
  ⟨_, C19_uniform_partial (4.25e9 : ℝ) 10e6 425 (by norm_num) (by norm_num) (by norm_num), rfl⟩

/-- Volcanoes deliver ice 3.75 Gyr ago with the default configuration. -/
theorem default_volc (d : RunData) (seed : Int) (time volc : List ℝ)
    (ht : time = uniformGrid (RunCfg.default seed).timestart (RunCfg.default seed).timestep 425)
    (h : volcanicIce (RunCfg.default seed).volc_mode (RunCfg.default seed).ice
      (RunCfg.default seed).head (fun x => (roundHalfEven x : ℝ)) d.sortNk
      RunCfg.rtol (RunCfg.default seed).timestep time d.nk = .ok volc) :
    ∃ v, volc[50]? = some v ∧ 0 < v := by
  have hp := default_physical seed
  rw [(C46_mode _ _ _ _ _ _ _ _ _).1 (show (RunCfg.default seed).volc_mode = "Head" from rfl)] at h
  have h' : thicknessOf (RunCfg.default seed) (volcanicHead (RunCfg.default seed).head time) =
    .ok volc := h
  rw [thicknessOf_eq hp] at h'
  injection h' with h'
  have ht50 : time[50]? = some (3.75e9 : ℝ) := by
    rw [ht]
    unfold uniformGrid
    rw [List.getElem?_map, List.getElem?_range (by norm_num)]
    simp only [Option.map_some, Option.some.injEq]
    change (4.25e9 : ℝ) - ((50 : Nat) : ℝ) * 10e6 = 3.75e9
    norm_num
  obtain ⟨x, hx, -, h2, -⟩ := (C45_steps (RunCfg.default seed).head time).2 50 _ ht50
  have hx0 := h2 (by
    simp only [InEpoch, RunCfg.default, RunCfg.head]
    norm_num) (by
    simp only [InEpoch, RunCfg.default, RunCfg.head]
    norm_num)
  refine ⟨perKg (RunCfg.default seed) * x, ?_, mul_pos (perKg_pos hp) ?_⟩
  · rw [← h', List.getElem?_map, hx]; rfl
  · rw [hx0]
    simp only [headIcePerYear, RunCfg.head, RunCfg.default]
    norm_num

end MoonPIES
