import Verif.Lemmas.Ties
import Verif.Props.Main
import Verif.Lemmas.Shipped

/-!
# C133: craters of the same age may be sorted either way
-/

namespace MoonPIES

open Spec

variable {σ : Type}

/-- **C133** (before the loop) If the craters are sorted by another algorithm, each cold trap starts with
the same ice and ejecta and has the same ballistic sedimentation. -/
theorem C133_setup (g : Gen σ) (c : RunCfg) (d : RunData) (sort' : CraterTable → CraterTable)
    (hs : SortDesc d.sortAges) (hs' : SortDesc sort') (hnd : c.coldtrap_names.Nodup) (st st' : Setup σ)
    (h : setup g c d = .ok st) (h' : setup g c { d with sortAges := sort' } = .ok st')
    (hb : c.impact_ice_basins = false ∨
      ((st.df.filter (fun r => r.rest.crater.isbasin)).map (·.age)).Nodup) :
    st'.time = st.time ∧ st'.df.Perm st.df ∧ st'.overturn = st.overturn ∧
    ∀ (j : Nat) name, c.coldtrap_names[j]? = some name →
      (∃ col col', st.cols.get name = .ok col ∧ st'.cols.get name = .ok col' ∧ col'.ice = col.ice ∧
        col'.ej = col.ej) ∧
      colOf j st'.bsedDepth = colOf j st.bsedDepth ∧ colOf j st'.bsedFrac = colOf j st.bsedFrac := by
  obtain ⟨s1, s2, dists, thick, a1, a2, a3, a4, a5, a6, a7⟩ := setup_inv g c d st h
  obtain ⟨s1', s2', dists', thick', b1, b2, b3, b4, b5, b6, b7⟩ := setup_inv g _ _ st' h'
  have ht : st'.time = st.time := by
    have : Except.ok st'.time = (Except.ok st.time : Except PyErr _) := b1.symm.trans a1
    injection this
  obtain ⟨mid, m1, m2⟩ := craterBasinList_sort g c d _ _ _ a2 sort'
  rw [m2] at b2
  injection b2 with b2
  injection b2 with b2 b2'
  subst b2'
  have hp : st'.df.Perm st.df := by
    rw [← b2, m1]
    exact (hs' mid).1.trans (hs mid).1.symm
  have hpc : (st'.df.map (·.rest.crater)).Perm (st.df.map (·.rest.crater)) := hp.map _
  have hb' : c.impact_ice_basins = false ∨ st'.df.filter (fun r => r.rest.crater.isbasin) =
      st.df.filter (fun r => r.rest.crater.isbasin) := by
    refine hb.imp_right fun hn => ?_
    have hpf := hp.filter (fun r => r.rest.crater.isbasin)
    have srt : ∀ l : CraterTable, (l.map (·.age)).Pairwise (· ≥ ·) →
        ((l.filter (fun r => r.rest.crater.isbasin)).map (·.age)).Nodup →
        (l.filter (fun r => r.rest.crater.isbasin)).Pairwise (fun a b => a.age > b.age) := by
      intro l hl hn
      have h1 : ((l.filter (fun r => r.rest.crater.isbasin)).map (·.age)).Pairwise (· ≥ ·) :=
        hl.sublist (List.filter_sublist.map _)
      rw [List.pairwise_map] at h1
      unfold List.Nodup at hn
      rw [List.pairwise_map] at hn
      exact (h1.and hn).imp fun h => lt_of_le_of_ne h.1 (fun e => h.2 e.symm)
    exact List.Perm.eq_of_pairwise (fun _ _ _ _ a b => absurd (lt_trans a b) (lt_irrefl _))
      (srt _ (b2 ▸ (hs' mid).2) ((hpf.map _).nodup_iff.2 hn)) (srt _ (m1 ▸ (hs mid).2) hn) hpf
  obtain ⟨ej, ice, e1, e2, e3⟩ := initStratCols_inv _ _ _ _ _ _ _ _ _ a5
  obtain ⟨ej', ice', f1, f2, f3⟩ := initStratCols_inv _ _ _ _ _ _ _ _ _ b5
  rw [ht] at f1 f2 b6
  have hice : ice' = ice := iceCols_perm g c d _ rfl hp hb' _ _ _ _ _ _ e2 f2
  subst hice
  refine ⟨ht, hp, by rw [a7, b7, ht], ?_⟩
  intro j name hj
  have hjl : j < c.coldtrap_names.length := (List.getElem?_eq_some_iff.1 hj).1
  have tc := thick_column a3 a4 hj
  have tc' := thick_column (c := c) b3 b4 hj
  rw [leaves_perm c.ej hpc] at tc'
  have dc := dists_column a3 hj
  have dc' := dists_column b3 hj
  rw [distOf_perm c.ej hpc] at dc'
  obtain ⟨q, q1, q2⟩ := (mapM_ok_inv _ _ _ e1).2 j j (List.getElem?_range hjl)
  obtain ⟨q', q1', q2'⟩ := (mapM_ok_inv _ _ _ f1).2 j j (List.getElem?_range hjl)
  have hne : st.time ≠ [] := (ejectaThicknessTime_ne q2).1
  refine ⟨?_, ?_, ?_⟩
  · obtain ⟨x, x1, x2⟩ := (buildCols_spec _ _ _ _ _ _ hnd e3).1 j name hj
    obtain ⟨x', x1', x2'⟩ := (buildCols_spec _ _ _ _ _ _ hnd f3).1 j name hj
    rw [Nat.zero_add] at x1 x1' x2 x2'
    rw [q1] at x1
    injection x1 with x1
    subst x1
    rw [q1'] at x1'
    injection x1' with x1'
    subst x1'
    refine ⟨_, _, x2, x2', rfl, ?_⟩
    simp only []
    unfold ejectaThicknessTime at q2 q2'
    obtain ⟨t1, y1, q2⟩ := bind_ok_inv q2
    obtain ⟨t1', y1', q2'⟩ := bind_ok_inv q2'
    obtain ⟨u1, -, q2⟩ := bind_ok_inv q2
    obtain ⟨u1', -, q2'⟩ := bind_ok_inv q2'
    cases q2; cases q2'
    have key : ∀ (df : CraterTable) (F : Crater → ℝ),
        (ejRows df (df.map fun r => F r.rest.crater)).map (fun r => (r.age, some r.thick)) =
          df.map fun r => (r.age, some (F r.rest.crater)) := by
      intro df F
      unfold ejRows
      rw [List.zipWith_map_right, List.zipWith_self, List.map_map]
      rfl
    rw [tc, key] at y1
    rw [tc', key] at y1'
    rw [C16_order_sum _ _ hne _ _ (hp.map _), y1] at y1'
    injection y1' with y1'
    exact y1'.symm
  · obtain ⟨dp, fr, g1, g2, g3, g4⟩ := bsedArrays_col hne a6 hjl
    obtain ⟨dp', fr', g1', g2', g3', g4'⟩ := bsedArrays_col hne b6 hjl
    rw [g1, g1']
    congr 1
    cases hbs : c.ballistic_sed with
    | false => rw [(g3 hbs).1, (g3' hbs).1]
    | true =>
      obtain ⟨o1, o2, k1, k2, k3⟩ := g4 hbs
      obtain ⟨o1', o2', k1', k2', k3'⟩ := g4' hbs
      rw [tc, List.map_map, zip_map_same] at k1
      rw [tc', List.map_map, zip_map_same] at k1'
      rw [dc, List.map_map, List.map_map, zip_map_same] at k2
      rw [dc', List.map_map, List.map_map, zip_map_same] at k2'
      rw [C16_order_sum _ _ hne _ _ (hp.map _), k1] at k1'
      rw [C16_order_max _ _ hne _ _ (hp.map _), k2] at k2'
      injection k1' with k1'
      injection k2' with k2'
      rw [k3, k3', k1', k2']
  · cases hbs : c.ballistic_sed with
    | false =>
      obtain ⟨dp, fr, g1, g2, g3, g4⟩ := bsedArrays_col hne a6 hjl
      obtain ⟨dp', fr', g1', g2', g3', g4'⟩ := bsedArrays_col hne b6 hjl
      rw [g2, g2', (g3 hbs).2, (g3' hbs).2]
    | true =>
      obtain ⟨melts, k1, k2⟩ := bsedArrays_frac hne a6 hbs
      obtain ⟨melts', k1', k2'⟩ := bsedArrays_frac hne b6 hbs
      obtain ⟨temps, mrs, l1, l2, l3⟩ := getMeltFrac_answer k1
      obtain ⟨temps', mrs', l1', l2', l3'⟩ := getMeltFrac_answer k1'
      have hq : ∀ i, i < c.coldtrap_names.length →
          (trapQueries c st'.df dists' i).Perm (trapQueries c st.df dists i) := by
        intro i hi
        have hi := List.getElem?_eq_getElem hi
        rw [trapQueries_map a3 hi, trapQueries_map (c := c) b3 hi, distOf_perm c.ej hpc]
        exact hp.map _
      have hmem : ∀ x, x ∈ ((List.range c.coldtrap_names.length).map (trapQueries c st'.df dists')).flatten ↔
          x ∈ ((List.range c.coldtrap_names.length).map (trapQueries c st.df dists)).flatten := by
        intro x
        simp only [List.mem_flatten, List.mem_map, List.mem_range]
        constructor
        · rintro ⟨_, ⟨i, hi, rfl⟩, hx⟩
          exact ⟨_, ⟨i, hi, rfl⟩, (hq i hi).mem_iff.1 hx⟩
        · rintro ⟨_, ⟨i, hi, rfl⟩, hx⟩
          exact ⟨_, ⟨i, hi, rfl⟩, (hq i hi).mem_iff.2 hx⟩
      rw [insertUnique_congr (src' := ((List.range c.coldtrap_names.length).map
        (trapQueries c st.df dists)).flatten.map (fun q => some q.1))
        (fun x => by simp only [List.mem_map, hmem])] at l1'
      rw [insertUnique_congr (src' := ((List.range c.coldtrap_names.length).map
        (trapQueries c st.df dists)).flatten.map (fun q => q.2))
        (fun x => by simp only [List.mem_map, hmem])] at l2'
      have ht1 : Except.ok temps' = (Except.ok temps : Except PyErr _) := l1'.symm.trans l1
      have hm1 : Except.ok mrs' = (Except.ok mrs : Except PyErr _) := l2'.symm.trans l2
      injection ht1 with ht1
      injection hm1 with hm1
      subst ht1 hm1
      obtain ⟨m, o, n1, n2, n3⟩ := k2 j hjl
      obtain ⟨m', o', n1', n2', n3'⟩ := k2' j hjl
      rw [l3, List.getElem?_map, List.getElem?_map, List.getElem?_range hjl] at n1
      rw [l3', List.getElem?_map, List.getElem?_map, List.getElem?_range hjl] at n1'
      simp only [Option.map_some, Option.some.injEq] at n1 n1'
      rw [trapQueries_map a3 hj, List.map_map] at n1
      rw [trapQueries_map (c := c) b3 hj, distOf_perm c.ej hpc, List.map_map] at n1'
      rw [← n1, zip_map_same] at n2
      rw [← n1', zip_map_same, C16_order_max _ _ hne _ _ (hp.map _), n2] at n2'
      injection n2' with n2'
      rw [n3, n3', n2']

/-- **C133** Two complete runs that differ only in how rows of equal age are ordered by the sort give
every cold trap the same ice and ejecta, provided that no two basins have the same age or the ice of
basins is left out. -/
theorem C133_ties (g : Gen σ) (c : RunCfg) (d : RunData) (sort' : CraterTable → CraterTable)
    (hs : SortDesc d.sortAges) (hs' : SortDesc sort') (hnd : c.coldtrap_names.Nodup) (out out' : CsvOut)
    (h : runMain g c d = .ok out) (h' : runMain g c { d with sortAges := sort' } = .ok out')
    (hb : c.impact_ice_basins = false ∨ ∀ df s, craterBasinList g c d (g.init c.seed) = .ok (df, s) →
      ((df.filter (fun r => r.rest.crater.isbasin)).map (·.age)).Nodup) :
    ∀ name ∈ c.coldtrap_names, ∃ ice ej, out.ice.get name = .ok ice ∧ out'.ice.get name = .ok ice ∧
      out.ej.get name = .ok ej ∧ out'.ej.get name = .ok ej := by
  intro name hn
  unfold runMain at h h'
  obtain ⟨st, s1, h⟩ := bind_ok_inv h
  obtain ⟨cols, c1, h⟩ := bind_ok_inv h
  obtain ⟨st', s1', h'⟩ := bind_ok_inv h'
  obtain ⟨cols', c1', h'⟩ := bind_ok_inv h'
  obtain ⟨t1, t2, -, -, -, a2, -⟩ := setup_inv g c d st s1
  obtain ⟨-, -, k3, k4⟩ := C133_setup g c d sort' hs hs' hnd st st' s1 s1'
    (hb.imp_right fun f => f _ _ a2)
  obtain ⟨j, hj⟩ := List.mem_iff_getElem?.1 hn
  obtain ⟨⟨col, col', e1, e2, e3, e4⟩, e5, e6⟩ := k4 j name hj
  obtain ⟨col1, u1, u2⟩ := C11_trap_alone _ _ _ _ hnd _ _ _ _ _ (liftPy_ok c1) j name hj col e1
  obtain ⟨col1', u1', u2'⟩ := C11_trap_alone _ _ _ _ hnd _ _ _ _ _ (liftPy_ok c1') j name hj col' e2
  rw [e5, e6, k3] at u2'
  obtain ⟨q, q', v1, v2, v3, v4⟩ := update_src _ _ _ _ _ _ e3 e4 u2 u2'
  simp only [List.cons.injEq, Prod.mk.injEq, true_and, and_true] at v1 v2
  subst v1 v2
  obtain ⟨-, r, hr, hrn, w, table, x1, x2, x3, x4, x5⟩ := And.imp_right (fun f => f name hn)
    (formatCsv_inv _ _ _ _ _ _ (liftPy_ok h))
  obtain ⟨-, r', hr', hrn', w', table', x1', x2', x3', x4', x5'⟩ := And.imp_right (fun f => f name hn)
    (formatCsv_inv _ _ _ _ _ _ (liftPy_ok h'))
  rw [u1] at x1
  injection x1 with x1
  subst x1
  rw [u1'] at x1'
  injection x1' with x1'
  subst x1'
  rw [v3] at x3'
  rw [v4] at x4'
  exact ⟨_, _, x3, x3', x4, x4'⟩

/-- The sort that keeps rows of equal age in the reverse of their order in the table. -/
theorem sortDesc_reverse : SortDesc (fun l => sortDesc l.reverse) := fun l =>
  ⟨(sortDesc_spec l.reverse).1.trans l.reverse_perm, (sortDesc_spec l.reverse).2⟩

/-- The published runs in "cannon" mode satisfy the hypotheses with two sorts that order ties in
opposite ways. -/
example (seed : Int) : ∃ out out',
    runMain constGen (RunCfg.cannon seed) (shippedData [] sortDesc id id) = .ok out ∧
    runMain constGen (RunCfg.cannon seed) (shippedData [] (fun l => sortDesc l.reverse) id id) = .ok out' ∧
    ∃ ice ej, out.ice.get "Faustini" = .ok ice ∧ out'.ice.get "Faustini" = .ok ice ∧
      out.ej.get "Faustini" = .ok ej ∧ out'.ej.get "Faustini" = .ok ej := by
  obtain ⟨out, h⟩ := C72_returns constGen constGen_lawful _ _ (cannon_physical seed)
    (cannon_data _ _ _ _ sortDesc_spec seed) (cannon_runnable [] sortDesc id id seed)
  obtain ⟨out', h'⟩ := C72_returns constGen constGen_lawful _ _ (cannon_physical seed)
    (cannon_data _ _ _ _ sortDesc_reverse seed) (cannon_runnable [] (fun l => sortDesc l.reverse) id id seed)
  exact ⟨out, out', h, h', C133_ties constGen _ (shippedData [] sortDesc id id) _ sortDesc_spec
    sortDesc_reverse (cannon_runnable [] sortDesc id id seed).nodup _ _ h h' (Or.inl rfl) "Faustini"
    (by simp [RunCfg.cannon, RunCfg.default])⟩

/-- A generator whose speeds increase by 1 km/s from the escape velocity. -/
noncomputable def stairGen : Gen Unit :=
  { constGen with
    truncnorm := fun a b n _ => (match b with
      | none => (List.range n).map (fun i : Nat => a + (i : ℝ) * (1 / 6))
      | some _ => List.replicate n a, ()) }

theorem stairGen_lawful : LawfulGen stairGen :=
  { constGen_lawful with
    truncnorm_length := by
      intro a b n s _
      cases b <;> simp [stairGen]
    truncnorm_range := by
      intro a b n s h z hz
      cases b with
      | none =>
        simp only [stairGen, List.mem_map] at hz
        obtain ⟨i, -, rfl⟩ := hz
        refine ⟨?_, fun b' hb => by cases hb⟩
        have : (0 : ℝ) ≤ (i : ℝ) * (1 / 6) := mul_nonneg (Nat.cast_nonneg _) (by norm_num)
        linarith
      | some b =>
        simp only [stairGen] at hz
        obtain rfl := (List.mem_replicate.1 hz).2
        exact ⟨le_refl _, fun b' hb => (h b' hb).le⟩ }

/-- For a slow asteroid the mass of ice is a product of a factor of the crater and a factor of the
speed. -/
theorem basin_mass_split (seed : Int) : ∃ A B : ℝ → ℝ,
    (∀ D v, 30e4 ≤ D → 0 < v → v < 10000 →
      largeCraterIce (RunCfg.default seed) "f" D v = .ok (A D * B v)) ∧
    (∀ D D', 30e4 ≤ D → D < D' → A D < A D') ∧ (∀ v v', 0 < v → v < v' → B v' < B v) := by
  have hp := default_physical seed
  obtain ⟨c, hc⟩ : ∃ t, t = RunCfg.default seed := ⟨_, rfl⟩
  rw [← hc] at hp ⊢
  have hk : c.is_comet = false := by rw [hc]; rfl
  have hpr : c.complex2peakring < 30e4 := by rw [hc]; norm_num [RunCfg.default]
  have hw : 0 < c.hydrated_wt_pct := by rw [hc]; norm_num [RunCfg.default]
  have hsin : 0 < Real.sin (deg2rad c.impact_angle) := sin_deg_pos _ hp.angle.1 hp.angle.2
  have h1 := hp.rho
  have h2 := hp.trho
  have h3 := hp.grav
  have h4 := hp.s2c.1
  obtain ⟨N, hN⟩ : ∃ N : ℝ → ℝ, N = fun v => 1.52 * (c.impactor_density / c.target_density) ^ (0.38 : ℝ) *
    v ^ (0.5 : ℝ) * c.grav_moon ^ (-0.25 : ℝ) * c.simple2complex ^ (-0.13 : ℝ) *
      Real.sin (deg2rad c.impact_angle) ^ (0.38 : ℝ) := ⟨_, rfl⟩
  have hNpos : ∀ v, 0 < v → 0 < N v := by intro v hv; rw [hN]; positivity
  have hNlt : ∀ v v', 0 < v → v < v' → N v < N v' := by
    intro v v' hv hvv
    have := Real.rpow_lt_rpow hv.le hvv (by norm_num : (0 : ℝ) < 0.5)
    rw [hN]
    simp only []
    gcongr
  refine ⟨fun D => (f2tCroft D ^ (1 / 0.88 : ℝ)) ^ 3,
    fun v => (4 / 3) * Real.pi * (1 / 2) ^ 3 * c.impactor_density * c.hydrated_wt_pct * 0.5 /
      (N v ^ (1 / 0.88 : ℝ)) ^ 3, ?_, ?_, ?_⟩
  · intro D v hD hv hv'
    have ht : final2transient c.simple2complex c.complex2peakring D = f2tCroft D := by
      unfold final2transient
      simp only []
      exact if_pos (by linarith)
    have hr : iceRetention c.mode c.is_comet v = 0.5 := by
      unfold iceRetention
      simp only [hk]
      rw [if_pos (show v * 1e-3 < 10 by linarith)]
      norm_num
    have hl : diam2lenOne c.scale D v "f" = .ok ((f2tCroft D / N v) ^ (1 / 0.88 : ℝ)) := by
      unfold diam2lenOne
      simp only []
      rw [if_neg (by decide), if_neg (by decide), if_pos (by simp)]
      change Except.ok (diam2lenJohnson (final2transient c.simple2complex c.complex2peakring D) v
        c.impactor_density c.target_density c.grav_moon c.impact_angle c.simple2complex) = _
      rw [ht, hN]
      rfl
    unfold largeCraterIce
    rw [hl]
    simp only [bind, Except.bind, diam2vol, hr]
    rw [Real.div_rpow (croft_pos D (by linarith)).le (hNpos v hv).le]
    congr 1
    have := (Real.rpow_pos_of_pos (hNpos v hv) (1 / 0.88)).ne'
    field_simp
  · intro D D' hD hDD
    have h0 : f2tCroft D < f2tCroft D' := by
      unfold f2tCroft
      simp only []
      refine Real.rpow_lt_rpow (mul_nonneg (by linarith) (by positivity)) ?_ (by norm_num)
      exact mul_lt_mul_of_pos_right hDD (by positivity)
    have hp0 := croft_pos D (by linarith)
    exact pow_lt_pow_left₀ (Real.rpow_lt_rpow hp0.le h0 (by norm_num)) (by positivity) (by norm_num)
  · intro v v' hv hvv
    have hn := hNpos v hv
    have := Real.rpow_lt_rpow hn.le (hNlt v v' hv hvv) (by norm_num : (0 : ℝ) < 1 / 0.88)
    have hn' := Real.rpow_pos_of_pos hn (1 / 0.88)
    have := pow_lt_pow_left₀ this hn'.le (by norm_num : (3 : ℕ) ≠ 0)
    have hpi := Real.pi_pos
    exact div_lt_div_of_pos_left (by positivity) (by positivity) this

/-- A basin 4 Ga old of the given radius, made by a hydrated asteroid. -/
def icyBasin (rad : ℝ) : CraterAge ℝ CraterCols :=
  ⟨4e9, 0, 0, ⟨⟨"basin", 0, 0, rad, true, none⟩, "hyd_ctype"⟩⟩

/-- **C133** is false of tied basins whose ice is counted: `ice_basins` draws the speeds in the order of
the sorted table, so that two basins of one age exchange their speeds when they are listed in the other
order. -/
theorem C133_basins_refuted : ∃ (df df' : CraterTable) (m m' : ℝ) (s s' : Unit),
    df'.Perm df ∧ (df.map (·.age)).Pairwise (· ≥ ·) ∧ (df'.map (·.age)).Pairwise (· ≥ ·) ∧
    iceBasins stairGen (RunCfg.default 1) df [4e9] () = .ok ([m], s) ∧
    iceBasins stairGen (RunCfg.default 1) df' [4e9] () = .ok ([m'], s') ∧ m ≠ m' := by
  obtain ⟨A, B, h1, h2, h3⟩ := basin_mass_split 1
  have key : ∀ r1 r2 : ℝ, 150e3 ≤ r1 → 150e3 ≤ r2 →
      iceBasins stairGen (RunCfg.default 1) [icyBasin r1, icyBasin r2] [4e9] () =
        .ok ([A (2 * r1) * B 2380 + A (2 * r2) * B 3380], ()) := by
    intro r1 r2 hr1 hr2
    have hrows : icyRows (RunCfg.default 1) [icyBasin r1, icyBasin r2] = [icyBasin r1, icyBasin r2] := by
      unfold icyRows
      exact List.filter_eq_self.2 (by
        intro r hr
        simp only [List.mem_cons, List.not_mem_nil, or_false] at hr
        rcases hr with rfl | rfl <;> rfl)
    have hsp : impactorSpeeds stairGen (RunCfg.default 1) 2 () = .ok ([2380, 3380], ()) := by
      unfold impactorSpeeds
      refine (if_neg (by simp [RunCfg.default])).trans ?_
      unfold asteroidSpeeds
      refine (if_neg (by norm_num [RunCfg.speed, RunCfg.default])).trans ?_
      unfold truncnormRvs
      refine (if_pos ⟨fun _ h => (by cases h), by norm_num [RunCfg.speed, RunCfg.default]⟩).trans ?_
      simp only [stairGen, RunCfg.speed, RunCfg.default, List.range_succ, List.range_zero]
      norm_num
    unfold iceBasins
    simp only [hrows, List.length_cons, List.length_nil, Nat.zero_add, Nat.reduceAdd, hsp, bind, Except.bind]
    have hm : (List.zip (List.map (fun r : CraterAge ℝ CraterCols => 2 * r.rest.crater.rad)
        [icyBasin r1, icyBasin r2]) [2380, 3380]).mapM
        (fun p => largeCraterIce (RunCfg.default 1) "f" p.1 p.2) =
        .ok [A (2 * r1) * B 2380, A (2 * r2) * B 3380] := by
      simp only [List.map_cons, List.map_nil, List.zip_cons_cons, List.zip_nil_right, List.mapM_cons,
        List.mapM_nil, icyBasin]
      rw [h1 _ _ (by linarith) (by norm_num) (by norm_num), h1 _ _ (by linarith) (by norm_num) (by norm_num)]
      rfl
    rw [hm]
    simp only [List.map_cons, List.map_nil, List.zip_cons_cons, List.zip_nil_right]
    obtain ⟨out, o1, o2, o3⟩ := ages2time_spec RunCfg.rtol [(4e9 : ℝ)] (by simp)
      [((icyBasin r1).age, A (2 * r1) * B 2380), ((icyBasin r2).age, A (2 * r2) * B 3380)] (· + ·) (0 : ℝ)
    rw [o1]
    have hin : ∀ r, InRange RunCfg.rtol [(4e9 : ℝ)] (icyBasin r).age ∧ Nearest [(4e9 : ℝ)] (icyBasin r).age 0 := by
      intro r
      have ht : (0 : ℝ) ≤ |(4e9 : ℝ)| * RunCfg.rtol := by
        have : (0 : ℝ) ≤ RunCfg.rtol := by norm_num [RunCfg.rtol]
        positivity
      refine ⟨⟨⟨4e9, by simp, by simp, ?_⟩, 4e9, by simp, by simp, ?_⟩, 4e9, rfl, ?_, ?_⟩
      · change _ ≤ (4e9 : ℝ)
        linarith
      · change (4e9 : ℝ) ≤ _
        linarith
      · intro j t' hj
        change |(4e9 : ℝ) - 4e9| ≤ _
        simp
      · intro j t' hj
        exact absurd hj (by omega)
    match out, o2 with
    | [x], _ =>
      have := o3 0 (by simp)
      unfold itemsAt at this
      rw [List.filter_eq_self.2 (by
        intro p hp
        simp only [List.mem_cons, List.not_mem_nil, or_false] at hp
        rcases hp with rfl | rfl <;> (simp only [decide_eq_true_eq]; exact hin _))] at this
      simp only [List.getElem?_cons_zero, List.map_cons, List.map_nil, List.foldl_cons, List.foldl_nil,
        Option.some.injEq, zero_add] at this
      rw [this]
  refine ⟨[icyBasin 150e3, icyBasin 500e3], [icyBasin 500e3, icyBasin 150e3], _, _, _, _,
    List.Perm.swap _ _ _, by simp [icyBasin], by simp [icyBasin], key _ _ (by norm_num) (by norm_num),
    key _ _ (by norm_num) (by norm_num), ?_⟩
  have a := h2 (2 * 150e3) (2 * 500e3) (by norm_num) (by norm_num)
  have b := h3 2380 3380 (by norm_num) (by norm_num)
  intro e
  have : (A (2 * 500e3) - A (2 * 150e3)) * (B 2380 - B 3380) = 0 := by linarith
  have := mul_pos (sub_pos.2 a) (sub_pos.2 b)
  linarith

end MoonPIES
