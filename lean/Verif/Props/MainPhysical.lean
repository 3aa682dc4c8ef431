import Verif.Lemmas.EjectaSign
import Verif.Props.MainLabels

/-!
# C85: nothing in the tables of a run is negative
-/

namespace MoonPIES

open Spec Real

variable {σ : Type}

/-- Spec: positive diameters, no basin wider than the Moon, transition diameters above those built
into the transient laws, the Moon's default radius. -/
structure Spec.Lunar (c : RunCfg) (d : RunData) : Prop where
  moon : c.rad_moon = 1737400
  angle90 : c.impact_angle < 90
  s2c : 18000 ≤ c.simple2complex
  c2pr : 18700 ≤ c.complex2peakring
  diam : ∀ r ∈ d.craters ++ d.basins, 0 < r.diam ∧ r.diam * 1000 / 2 ≤ c.rad_moon

/-- Thickness at a distance beyond the rim. -/
theorem thick_nonneg {c : RunCfg} (hc : PhysicalCfg c) (hm : c.rad_moon = 1737400)
    (h90 : c.impact_angle < 90) (hs : 18000 ≤ c.simple2complex) (hp : 18700 ≤ c.complex2peakring)
    (r d x : ℝ) (hr : 0 < r) (hrm : r ≤ c.rad_moon) (h1 : r < d) (h2 : d ≤ π * 1737400)
    (h : ejThickness c.ej (some d) r = .fin x) : 0 ≤ x := by
  by_cases hpr : c.complex2peakring / 2 ≤ r
  · have hlt := C38_transient_lt_final c.simple2complex c.complex2peakring (r * 2) (by positivity)
      hs hp hc.s2c.2
    obtain ⟨R, hR⟩ : ∃ R, R = final2transient c.ej.simple2complex c.ej.complex2peakring (r * 2) / 2 :=
      ⟨_, rfl⟩
    have hRr : R < r := by
      rw [hR]
      change final2transient c.simple2complex c.complex2peakring _ / 2 < r
      linarith
    rcases lt_or_eq_of_le h2 with h2 | h2
    · obtain ⟨t, e1, e2⟩ := C36_basin_positive_partial c.ej d r R hr hpr hR (hRr.le.trans hrm) hc.grav
        hc.angle.1 h90 (hRr.trans h1)
        (show d < π * c.rad_moon by rw [hm]; exact h2) h2
      rw [h, Flt.fin.injEq] at e1
      rw [e1]; exact e2.le
    · rw [h2, basin_antipode c.ej r R hr hpr hR hm (hRr.le.trans hrm) hc.grav hc.angle.1 h90] at h
      cases h
  · by_cases he : r = c.simple2complex / 2
    · have hlt : c.simple2complex < c.complex2peakring := by rw [he] at hpr; linarith
      have e := C36_transition_gap c.ej d hlt
      rw [he] at h
      change ejThickness c.ej (some d) (c.simple2complex / 2) = .fin 0 at e
      rw [e, Flt.fin.injEq] at h
      exact h.le
    · obtain ⟨t, e1, e2⟩ := C36_positive_partial c.ej d r (hr.trans h1) hr hc.s2c.2 he (not_le.1 hpr)
      rw [h, Flt.fin.injEq] at e1
      rw [e1]; exact e2.le

/-- A distance kept for the ejecta of a row lies beyond its rim and on the Moon. -/
theorem coldtrapDist_range (cfg : EjCfg) (df : List Crater) (row : Crater) (trap : String) (d : ℝ)
    (h : coldtrapDist cfg df row trap = .ok (some d)) : row.rad < d ∧ d ≤ π * 1737400 := by
  unfold coldtrapDist at h
  simp only [] at h
  split at h
  · cases h
  · split at h
    · cases h
    · split at h
      · cases h
      · split at h
        · cases h
        · next x hx =>
          have hrange := C34_range _ _ _ _ _ _ (by norm_num) hx
          injection h with h
          by_cases hb : inBlanket row.rad
            (if row.isbasin = true then cfg.basin_ej_threshold else cfg.ej_threshold) x
          · rw [if_pos hb] at h
            split at h
            · cases h
            · injection h with h
              subst h
              refine ⟨hb.1, ?_⟩
              have e : (1737.4e3 : ℝ) = 1737400 := by norm_num
              rw [← e]; exact hrange.2
          · rw [if_neg hb, if_pos le_rfl] at h
            cases h
    · cases h

/-- **C85** no row of the crater table leaves negative ejecta anywhere. -/
theorem C85_row_ejecta_partial (g : Gen σ) (c : RunCfg) (d : RunData)
    (hc : PhysicalCfg c) (hs : Spec.SortDesc d.sortAges) (hl : Lunar c d) (df : CraterTable)
    (s s' : σ) (hdf : craterBasinList g c d s = .ok (df, s')) (name : String) :
    ∀ r ∈ df, ∀ x, RowEjecta c df name r x → 0 ≤ x := by
  intro r hr x ⟨dist, h1, h2⟩
  have hrad : 0 < r.rest.crater.rad ∧ r.rest.crater.rad ≤ c.rad_moon := by
    obtain ⟨z, mid, h3, h4⟩ := craterBasinList_inv g c d _ _ _ hdf
    have hm : r ∈ mid := by
      rw [h4] at hr
      exact (hs mid).1.mem_iff.1 hr
    have hrest : r.rest ∈ (rawTable g c d s).map (·.rest) := by
      rw [← newAges_rest _ _ _ _ _ h3]; exact List.mem_map_of_mem hm
    obtain ⟨q, hq, e⟩ := List.mem_map.1 hrest
    obtain ⟨raw, hraw, b, icy, hq'⟩ := rawTable_mem g c d _ q hq
    obtain ⟨k1, k2⟩ := hl.diam raw hraw
    rw [← e, hq']
    refine ⟨?_, k2⟩
    simp only [readRow]
    positivity
  cases dist with
  | none =>
    rw [C36_missing_distance, Flt.fin.injEq] at h2
    exact h2.le
  | some dd =>
    obtain ⟨k1, k2⟩ := coldtrapDist_range _ _ _ _ _ h1
    exact thick_nonneg hc hl.moon hl.angle90 hl.s2c hl.c2pr _ _ _ hrad.1 hrad.2 k1 k2 h2

/-- What a run does for one cold trap after its columns are updated. -/
theorem run_steps (g : Gen σ) (hg : LawfulGen g) (c : RunCfg) (d : RunData)
    (hc : PhysicalCfg c) (hd : PhysicalData c d) (hnd : c.coldtrap_names.Nodup) (out : CsvOut)
    (hrun : runMain g c d = .ok out) :
    ∃ df s time, craterBasinList g c d (g.init c.seed) = .ok (df, s) ∧
      getTimeArray c.timestart c.timeend c.timestep = .ok time ∧
      ∀ name ∈ c.coldtrap_names, ∃ trap ∈ df, trap.rest.crater.cname = name ∧
        ∃ (steps : List (Step ℝ)) (table : List (StratRow ℝ)),
          out.ice.get name = .ok (steps.map (·.ice)) ∧ out.ej.get name = .ok (steps.map (·.ejecta)) ∧
          out.strat.get name = .ok table ∧ steps.map (·.time) = time ∧
          makeStratCol c.thickness_min RunCfg.rtol c.strat_after_age trap.age steps = .ok table ∧
          (∀ st ∈ steps, 0 ≤ st.ice) ∧
          ∃ th, List.Forall₂ (RowEjecta c df name) df th ∧
            (∀ (i : Nat) st, steps[i]? = some st → ∃ p : CraterAge ℝ CraterCols × ℝ → Prop,
              ∃ _ : DecidablePred p, st.ejecta = (((df.zip th).filter (fun q => decide (p q))).map (·.2)).sum) ∧
            ((∀ r ∈ d.craters ++ d.basins, GoodName r.cname) → ∀ (i : Nat) st, steps[i]? = some st →
              st.src = joinComma (Sources RunCfg.rtol c.thickness_min time df th i)) := by
  classical
  unfold runMain at hrun
  obtain ⟨st, hst, hrun⟩ := bind_ok_inv hrun
  obtain ⟨cols, hcols, hrun⟩ := bind_ok_inv hrun
  have hcols := liftPy_ok hcols
  obtain ⟨hne, hfmt⟩ := formatCsv_inv _ _ _ _ _ _ (liftPy_ok hrun)
  obtain ⟨s1, s2, dists, thick, h1, h2, h3, h4, h5, -⟩ := setup_inv g c d st hst
  obtain ⟨ejs, ice, e1, e2, e3⟩ := initStratCols_inv _ _ _ _ _ _ _ _ _ h5
  obtain ⟨b1, -⟩ := buildCols_spec _ _ _ _ _ _ hnd e3
  have wf := setup_wellFormed g hg hc hd hnd hne st hst
  obtain ⟨cols', hc1, hc2⟩ := run_cols g hg hc hd hnd hne st hst
  rw [hc1] at hcols
  cases hcols
  obtain ⟨cols'', hc3, hc4⟩ := C09_run_only_loses Rounding.id ejShield c.impact_gardening_costello
    c.coldtrap_names st.cols st.overturn st.bsedDepth st.bsedFrac wf
  have hc3 := hc1.symm.trans hc3
  cases hc3
  refine ⟨st.df, s1, st.time, h2, h1, ?_⟩
  intro name hn
  obtain ⟨j, hj⟩ := List.mem_iff_getElem?.1 hn
  obtain ⟨r, hr, hrn', col, table, t1, t2, t3, t4, t5⟩ := hfmt name hn
  obtain ⟨col0, col', k1, k2, k3, k4, k5, k6, k7⟩ := hc2 name hn
  rw [t1] at k2
  cases k2
  have hsrc := (get_forall₂ (fun p q h => h.1) hc4 k1 t1).2.2.1
  obtain ⟨e, f1, f2⟩ := b1 j name hj
  rw [Nat.zero_add] at f1 f2
  rw [k1] at f2
  injection f2 with f2
  obtain ⟨-, q⟩ := thickness_rows c st.df dists thick h3 h4 j name hj
  have hjl : j < c.coldtrap_names.length := (List.getElem?_eq_some_iff.1 hj).1
  obtain ⟨l5, i5⟩ := mapM_ok_inv _ _ _ e1
  obtain ⟨e', f3, f4⟩ := i5 j j (by rw [List.getElem?_range hjl])
  rw [f1] at f3
  cases f3
  obtain ⟨u1, u2, u3⟩ := toSteps_time st.time col k5 k6 k7
  refine ⟨r, hr, hrn', toSteps st.time col, table, by rw [u2]; exact t3, by rw [u3]; exact t4, t5,
    u1, t2, ?_, column thick j, q, ?_, ?_⟩
  · have hcolnn : ∀ x ∈ col.ice, 0 ≤ x := by
      intro x hx
      obtain ⟨i, hi⟩ := List.mem_iff_getElem?.1 hx
      have hil := (List.getElem?_eq_some_iff.1 hi).1
      have := (List.forall₂_iff_get.1 k4).2 i (by rw [k4.length_eq]; exact hil) hil
      rw [show col.ice.get ⟨i, hil⟩ = x from (List.getElem?_eq_some_iff.1 hi).2] at this
      exact this.1
    intro s hs
    apply hcolnn
    rw [← u2]; exact List.mem_map_of_mem hs
  · intro i s hs
    obtain ⟨-, -, w, -⟩ := toSteps_get _ _ _ _ hs
    rw [k3, f2] at w
    exact ⟨_, _, ejecta_sum _ _ _ _ _ q.length_eq.symm _ f4 i _ w⟩
  · intro hgood i s hs
    obtain ⟨-, -, -, w⟩ := toSteps_get _ _ _ _ hs
    rw [hsrc, f2] at w
    refine ejecta_sources _ _ _ _ _ ?_ _ f4 i _ w
    intro r hr
    obtain ⟨q, q1, q2⟩ := df_names g c d hd.sorted _ _ _ h2 r hr
    rw [← q2]; exact hgood q q1

/-- The timesteps of a run hold no negative ice or ejecta. -/
theorem run_steps_nonneg (g : Gen σ) (hg : LawfulGen g) (c : RunCfg) (d : RunData)
    (hc : PhysicalCfg c) (hd : PhysicalData c d) (hl : Lunar c d) (hnd : c.coldtrap_names.Nodup)
    (out : CsvOut) (hrun : runMain g c d = .ok out) :
    ∃ df s time, craterBasinList g c d (g.init c.seed) = .ok (df, s) ∧
      getTimeArray c.timestart c.timeend c.timestep = .ok time ∧
      ∀ name ∈ c.coldtrap_names, ∃ trap ∈ df, trap.rest.crater.cname = name ∧
        ∃ (steps : List (Step ℝ)) (table : List (StratRow ℝ)),
          out.ice.get name = .ok (steps.map (·.ice)) ∧ out.ej.get name = .ok (steps.map (·.ejecta)) ∧
          out.strat.get name = .ok table ∧ steps.map (·.time) = time ∧
          makeStratCol c.thickness_min RunCfg.rtol c.strat_after_age trap.age steps = .ok table ∧
          (∀ st ∈ steps, 0 ≤ st.ice ∧ 0 ≤ st.ejecta) ∧
          ∃ th, List.Forall₂ (RowEjecta c df name) df th ∧
            ((∀ r ∈ d.craters ++ d.basins, GoodName r.cname) → ∀ (i : Nat) st, steps[i]? = some st →
              st.src = joinComma (Sources RunCfg.rtol c.thickness_min time df th i)) := by
  obtain ⟨df, s, time, h1, h2, h3⟩ := run_steps g hg c d hc hd hnd out hrun
  refine ⟨df, s, time, h1, h2, ?_⟩
  intro name hn
  obtain ⟨trap, t1, t2, steps, table, a1, a2, a3, a4, a5, a6, th, b1, b2, b3⟩ := h3 name hn
  refine ⟨trap, t1, t2, steps, table, a1, a2, a3, a4, a5, ?_, th, b1, b3⟩
  intro st hst
  refine ⟨a6 st hst, ?_⟩
  obtain ⟨i, hi⟩ := List.mem_iff_getElem?.1 hst
  obtain ⟨p, dp, e⟩ := b2 i st hi
  rw [e]
  apply List.sum_nonneg
  intro x hx
  obtain ⟨q, hq, rfl⟩ := List.mem_map.1 hx
  obtain ⟨k, k1, k2⟩ := mem_zip_get.1 (show (q.1, q.2) ∈ df.zip th from List.mem_of_mem_filter hq)
  have hkl := (List.getElem?_eq_some_iff.1 k1).1
  have hkl' := (List.getElem?_eq_some_iff.1 k2).1
  have hre := (List.forall₂_iff_get.1 b1).2 k hkl hkl'
  rw [show df.get ⟨k, hkl⟩ = q.1 from (List.getElem?_eq_some_iff.1 k1).2,
    show th.get ⟨k, hkl'⟩ = q.2 from (List.getElem?_eq_some_iff.1 k2).2] at hre
  exact C85_row_ejecta_partial g c d hc hd.sorted hl df _ _ h1 name q.1 (List.mem_of_getElem? k1) q.2 hre

/-- **C85** every run that returns: neither ice nor ejecta is negative at any time or in any layer;
the depth of a layer is its own thickness plus all layers above it, so depths never decrease
downwards; the ice percentage is missing exactly for empty layers and otherwise within 0 and 100 and
right to four decimals. -/
theorem C85_run_tables_partial (g : Gen σ) (hg : LawfulGen g) (c : RunCfg) (d : RunData)
    (hc : PhysicalCfg c) (hd : PhysicalData c d) (hl : Lunar c d) (hnd : c.coldtrap_names.Nodup)
    (out : CsvOut) (hrun : runMain g c d = .ok out) :
    ∀ name ∈ c.coldtrap_names, ∃ ice ej table, out.ice.get name = .ok ice ∧
      out.ej.get name = .ok ej ∧ out.strat.get name = .ok table ∧
      (∀ x ∈ ice, 0 ≤ x) ∧ (∀ x ∈ ej, 0 ≤ x) ∧
      (table.map (·.ice)).sum ≤ ice.sum ∧ (table.map (·.ejecta)).sum ≤ ej.sum ∧
      (∀ (i : Nat) r, table[i]? = some r →
        r.depth = ((table.drop i).map (fun r => r.ice + r.ejecta)).sum) ∧
      (∀ (i j : Nat) r r', i ≤ j → table[i]? = some r → table[j]? = some r' →
        0 ≤ r'.depth ∧ r'.depth ≤ r.depth) ∧
      ∀ r ∈ table, 0 ≤ r.ice ∧ 0 ≤ r.ejecta ∧ (r.icepct = none ↔ r.ice = 0 ∧ r.ejecta = 0) ∧
        ∀ p, r.icepct = some p → 0 ≤ p ∧ p ≤ 100 ∧
          |p - 100 * r.ice / (r.ice + r.ejecta)| ≤ 1 / 20000 := by
  obtain ⟨df, s, time, -, -, h3⟩ := run_steps_nonneg g hg c d hc hd hl hnd out hrun
  intro name hn
  obtain ⟨trap, -, -, steps, table, a1, a2, a3, -, a5, a6, -⟩ := h3 name hn
  have hsub : ∀ (f : Step ℝ → ℝ) (p : Step ℝ → Bool), (∀ s ∈ steps, 0 ≤ f s) →
      ((steps.filter p).map f).sum ≤ (steps.map f).sum := by
    intro f p
    clear a1 a2 a5 a6
    induction steps with
    | nil => intro _; simp
    | cons s l ih =>
      intro h
      have h0 := h s (by simp)
      have := ih (fun x hx => h x (List.mem_cons_of_mem _ hx))
      cases hp : p s
      · rw [List.filter_cons_of_neg (by simp [hp]), List.map_cons, List.sum_cons]; linarith
      · rw [List.filter_cons_of_pos hp, List.map_cons, List.map_cons, List.sum_cons, List.sum_cons]
        linarith
  refine ⟨_, _, table, a1, a2, a3, ?_, ?_, ?_, ?_, (C22_depth_cumulative _ _ _ _ _ _ a5).1,
    C22_depth_monotone _ _ _ _ _ a6 _ a5, ?_⟩
  · intro x hx
    obtain ⟨st, hst, rfl⟩ := List.mem_map.1 hx
    exact (a6 st hst).1
  · intro x hx
    obtain ⟨st, hst, rfl⟩ := List.mem_map.1 hx
    exact (a6 st hst).2
  · rw [(C21_accounting _ _ _ _ _ _ a5).1]
    exact hsub _ _ (fun s hs => (a6 s hs).1)
  · rw [(C21_accounting _ _ _ _ _ _ a5).2]
    exact hsub _ _ (fun s hs => (a6 s hs).2)
  · intro r hr
    obtain ⟨k1, k2⟩ := strat_nonneg a6 a5 r hr
    obtain ⟨p1, p2, -⟩ := C23_icepct _ _ _ _ _ a6 _ a5 r hr
    refine ⟨k1, k2, ?_, p2⟩
    rw [p1]
    constructor
    · intro h; constructor <;> linarith
    · rintro ⟨h, h'⟩; rw [h, h', add_zero]

/-- **C85 refuted** for a Moon of another radius: distances are measured on the default Moon, and a
trap opposite to a basin of South Pole-Aitken size then gets negative ejecta (`rad_moon` rounded to
1737 km). -/
theorem C85_radius_refuted :
    ¬ ∀ (cfg : EjCfg) (df : List Crater) (row : Crater) (trap : String) (dist : Option ℝ) (x : ℝ),
      cfg = { EjCfg.default with rad_moon := cfg.rad_moon } → 1737000 ≤ cfg.rad_moon →
      cfg.rad_moon ≤ 1737400 → row ∈ df → 0 < row.rad → row.rad ≤ cfg.rad_moon →
      coldtrapDist cfg df row trap = .ok dist → ejThickness cfg dist row.rad = .fin x → 0 ≤ x := by
  intro hall
  have hpi := pi_gt_three
  have hpi' := pi_lt_d2
  obtain ⟨cfg, hcfg⟩ : ∃ c : EjCfg, c = { EjCfg.default with rad_moon := 1737000 } := ⟨_, rfl⟩
  have m1 : cfg.rad_moon = 1737000 := by rw [hcfg]
  have m2 : cfg.simple2complex = 18e3 := by rw [hcfg]; rfl
  have m3 : cfg.complex2peakring = 1.4e5 := by rw [hcfg]; rfl
  have m4 : cfg.grav_moon = 1.62 := by rw [hcfg]; rfl
  have m5 : cfg.impact_angle = 45 := by rw [hcfg]; rfl
  have m6 : cfg.basin_ej_threshold = 5 := by rw [hcfg]; rfl
  obtain ⟨B, hB⟩ : ∃ c : Crater, c = ⟨"B", 0, -90, 1200000, true, none⟩ := ⟨_, rfl⟩
  obtain ⟨A, hA⟩ : ∃ c : Crater, c = ⟨"A", 0, 90, 10000, false, some (90, 0)⟩ := ⟨_, rfl⟩
  have hBr : B.rad = 1200000 := by rw [hB]
  have hsurf : surfaceDist B 90 0 = π * 1737400 := by
    unfold surfaceDist
    have hdir : direction 90 0 = -direction B.lat B.lon := by
      rw [hB]
      unfold direction
      have e1 : (90 : ℝ) * π / 180 = π / 2 := by ring
      have e2 : (-90 : ℝ) * π / 180 = -(π / 2) := by ring
      simp only [e1, e2, cos_neg, sin_neg, cos_pi_div_two, sin_pi_div_two, zero_mul]
      ext i
      fin_cases i <;> simp
    rw [hdir, InnerProductGeometry.angle_self_neg_of_nonzero]
    · ring
    · intro h0
      have := direction_norm B.lat B.lon
      rw [h0, norm_zero] at this
      norm_num at this
  have hd := (coldtrapDist_eq cfg [A, B] B A "A" (by rw [hA, hB]; simp) (by rw [hBr]; norm_num)
    (π * 1737400)).2 ⟨by rw [hB]; simp, ⟨(90, 0), by rw [hA], hsurf.symm⟩, by rw [hBr]; linarith,
      Or.inr (by
        have : thresholdOf cfg B = 5 := by rw [hB]; exact m6
        rw [this, hBr]; linarith)⟩
  obtain ⟨R, hR⟩ : ∃ R, R = final2transient cfg.simple2complex cfg.complex2peakring (B.rad * 2) / 2 :=
    ⟨_, rfl⟩
  have hR1 : R ≤ cfg.rad_moon := by
    have := C38_transient_lt_final cfg.simple2complex cfg.complex2peakring (B.rad * 2)
      (by rw [hBr]; norm_num) (by rw [m2]; norm_num) (by rw [m3]; norm_num)
      (by rw [m2, m3]; norm_num)
    rw [m1, hR]
    generalize final2transient cfg.simple2complex cfg.complex2peakring (B.rad * 2) = w at this
    rw [hBr] at this
    linarith
  have hR2 : 9350 ≤ R := by
    rw [hR, f2t_basin _ _ _ (by rw [hBr, m3]; norm_num)]
    have := croft_mono 18700 (B.rad * 2) (by norm_num) (by rw [hBr]; norm_num)
    generalize f2tCroft (B.rad * 2) = w at this
    have e : f2tCroft 18700 = 18700 := by
      unfold f2tCroft
      simp only []
      have e1 : (18.7e3 : ℝ) = 18700 := by norm_num
      have e2 : (18700 : ℝ) * 18700 ^ (0.18 : ℝ) = 18700 ^ (1 + 0.18 : ℝ) := by
        rw [rpow_add (by norm_num), rpow_one]
      rw [e1, e2, pow_root _ (by norm_num) _ (by norm_num)]
    linarith
  obtain ⟨t, e1, e2⟩ := basin_beyond cfg (π * 1737400) B.rad R (by rw [hBr]; norm_num)
    (by rw [hBr, m3]; norm_num) hR hR1 (by rw [m4]; norm_num) (by rw [m5]; norm_num)
    (by rw [m5]; norm_num) (by rw [m1]; linarith) (by rw [m1]; linarith) le_rfl
  have := hall cfg [A, B] B "A" _ t (by rw [m1]; exact hcfg) m1.ge (by rw [m1]; norm_num) (by simp)
    (by rw [hBr]; norm_num) (by rw [hBr, m1]; norm_num) hd e1
  linarith

/-- The shipped configuration and data satisfy the hypotheses. -/
theorem default_lunar (nk : List (ℝ × ℝ)) (sortAges : CraterTable → CraterTable)
    (sortNk : List (ℝ × ℝ) → List (ℝ × ℝ)) (setOrder : List (List Char) → List (List Char))
    (seed : Int) :
    Lunar (RunCfg.default seed) (shippedData nk sortAges sortNk setOrder) where
  moon := by simp only [RunCfg.default]; norm_num
  angle90 := (default_runnable nk sortAges sortNk setOrder seed).angle90
  s2c := (default_runnable nk sortAges sortNk setOrder seed).s2c
  c2pr := (default_runnable nk sortAges sortNk setOrder seed).c2pr
  diam := by
    intro r hr
    have hrun := default_runnable nk sortAges sortNk setOrder seed
    refine ⟨hrun.diam r hr, ?_⟩
    rcases lt_or_ge (r.diam * 1000) (RunCfg.default seed).complex2peakring with h | h
    · simp only [RunCfg.default] at h ⊢
      norm_num at h ⊢
      linarith
    · exact (hrun.peak r hr h).1

/-- C85 holds of the shipped model: it returns, with nothing negative, whatever the seed. -/
example (g : Gen σ) (hg : LawfulGen g) (seed : Int) :
    ∃ out, runMain g (RunCfg.default seed) (shippedData [] sortDesc id id) = .ok out ∧
      ∀ name ∈ (RunCfg.default seed).coldtrap_names, ∃ ej, out.ej.get name = .ok ej ∧
        ∀ x ∈ ej, 0 ≤ x := by
  obtain ⟨⟨out, h⟩, -⟩ := C74_default_returns [] sortDesc id id g hg sortDesc_spec seed
  refine ⟨out, h, ?_⟩
  intro name hn
  obtain ⟨_, ej, _, -, h2, -, -, h4, -⟩ := C85_run_tables_partial g hg _ _ (default_physical seed)
    (default_data _ _ _ _ sortDesc_spec seed) (default_lunar _ _ _ _ seed)
    (default_runnable [] sortDesc id id seed).nodup out h name hn
  exact ⟨ej, h2, h4⟩

end MoonPIES
