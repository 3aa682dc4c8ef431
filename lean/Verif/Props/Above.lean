import Verif.Props.LayDown
import Verif.Props.CannonRun
import Verif.Props.Frame
import Verif.Props.Products
import Verif.Props.MainPhysical
import Verif.Props.Steady

/-!
# C170: a layer does not depend on what lies below it
-/

namespace MoonPIES

open Spec

section
variable {K : Type} [Field K] [LinearOrder K] [IsStrictOrderedRing K]

omit [IsStrictOrderedRing K] in
theorem sink_above (depth eff : K) : ∀ (a b : List (K × K)) (d : K),
    (sink depth eff d (a ++ b)).take a.length = sink depth eff d a
  | [], b, d => by simp [sink]
  | (x, e) :: a, b, d => by
    rw [List.cons_append, sink, sink]
    split
    · rw [List.length_cons, List.take_succ_cons, sink_above depth eff a b]
    · rw [List.length_cons, List.take_succ_cons, List.take_left]

omit [IsStrictOrderedRing K] in
/-- **C170** gardening and sedimentation: the layers of the last timesteps are those of these timesteps alone, whatever
was there. -/
theorem C170_layers : ∀ (vs : List (Event K)) (l : List (K × K)) (n : Nat), n ≤ l.length →
    (layDown l vs).take (n + vs.length) = layDown (l.take n) vs
  | [], l, n, _ => by simp [layDown]
  | v :: vs, l, n, hn => by
    have key : ∀ (depth eff : K) (l : List (K × K)) (n : Nat), n ≤ l.length →
        (sink depth eff 0 l).take n = sink depth eff 0 (l.take n) := by
      intro depth eff l n hn
      conv_lhs => rw [← List.take_append_drop n l]
      have := sink_above depth eff (l.take n) (l.drop n) 0
      rwa [List.length_take, min_eq_left hn] at this
    have hlen : ∀ (depth eff d : K) (l : List (K × K)), (sink depth eff d l).length = l.length := by
      intro depth eff d l
      induction l generalizing d with
      | nil => rfl
      | cons p l ih =>
        obtain ⟨x, e⟩ := p
        rw [sink]
        split
        · rw [List.length_cons, ih, List.length_cons]
        · rfl
    rw [layDown, layDown, List.length_cons, show n + (vs.length + 1) = (n + 1) + vs.length by omega,
      C170_layers vs _ (n + 1) (by rw [hlen, List.length_cons, hlen]; omega), key _ _ _ _
        (by rw [List.length_cons, hlen]; omega), List.take_succ_cons, key _ _ _ _ hn]

omit [IsStrictOrderedRing K] in
theorem eat_above : ∀ (a b : List K) (ed : K), (eat ed (a ++ b)).take a.length = eat ed a
  | [], b, ed => by simp [eat]
  | x :: a, b, ed => by
    rw [List.cons_append, eat, eat]
    split
    · rw [List.length_cons, List.take_succ_cons, List.take_left]
    · rw [List.length_cons, List.take_succ_cons, eat_above a b]

omit [IsStrictOrderedRing K] in
/-- **C170** erosion: the same. -/
theorem C170_pile (shield ed : K) : ∀ (r : List (K × K)) (st : List K) (n : Nat), n ≤ st.length →
    (pile shield ed st r).take (n + r.length) = pile shield ed (st.take n) r
  | [], st, n, _ => by simp [pile]
  | (y, e) :: r, st, n, hn => by
    have hlen : ∀ (l : List K) (ed : K), (eat ed l).length = l.length := by
      intro l
      induction l with
      | nil => intro _; rfl
      | cons x l ih =>
        intro ed
        rw [eat]
        split
        · rfl
        · rw [List.length_cons, ih, List.length_cons]
    have key : (if e ≤ shield then eat ed (y :: st) else y :: st).take (n + 1) =
        if e ≤ shield then eat ed (y :: st.take n) else y :: st.take n := by
      split
      · conv_lhs => rw [← List.take_append_drop n st, ← List.cons_append]
        have := eat_above (y :: st.take n) (st.drop n) ed
        rwa [List.length_cons, List.length_take, min_eq_left hn] at this
      · rw [List.take_succ_cons]
    rw [pile, pile, List.length_cons, show n + (r.length + 1) = (n + 1) + r.length by omega,
      C170_pile shield ed r _ (n + 1) (by split <;> simp [hlen]; all_goals omega), key]

omit [IsStrictOrderedRing K] in
theorem layDown_append : ∀ (a b : List (Event K)) (l : List (K × K)), layDown l (a ++ b) = layDown (layDown l a) b
  | [], _, _ => rfl
  | v :: a, b, l => by rw [List.cons_append, layDown, layDown, layDown_append a b]

omit [IsStrictOrderedRing K] in
theorem drop_layers (vs : List (Event K)) (k : Nat) :
    ((layDown [] vs).map (·.1)).reverse.drop k = ((layDown [] (vs.drop k)).map (·.1)).reverse := by
  rcases Nat.lt_or_ge vs.length k with hk | hk
  · rw [List.drop_eq_nil_of_le (by rw [List.length_reverse, List.length_map, layDown_length]; simp; omega),
      List.drop_eq_nil_of_le (as := vs) hk.le]
    rfl
  · have h := C170_layers (vs.drop k) (layDown [] (vs.take k)) 0 (Nat.zero_le _)
    rw [← layDown_append, List.take_append_drop, List.take_zero, Nat.zero_add, List.length_drop] at h
    rw [← h, List.map_take, List.drop_reverse, List.length_map, layDown_length]
    simp

theorem drop_pile (shield ed : K) (r : List (K × K)) (k : Nat) :
    (pile shield ed [] r).reverse.drop k = (pile shield ed [] (r.drop k)).reverse := by
  rcases Nat.lt_or_ge r.length k with hk | hk
  · rw [List.drop_eq_nil_of_le (by rw [List.length_reverse, pile_length]; simp; omega),
      List.drop_eq_nil_of_le (as := r) hk.le]
    rfl
  · have h := C170_pile shield ed (r.drop k) (pile shield ed [] (r.take k)) 0 (Nat.zero_le _)
    rw [← pile_append, List.take_append_drop, List.take_zero, Nat.zero_add, List.length_drop] at h
    rw [← h, List.drop_reverse, pile_length]
    simp

end

/-- Two timesteps, the first with much ice, under a third that is gardened. -/
example : ((layDown [] ([⟨9, 0, 1, 0, 0⟩, ⟨2, 0, 1, 0, 0⟩, ⟨1, 1, 2, 1, 1⟩] : List (Event ℚ))).map (·.1)).reverse.drop 1 =
    ((layDown [] ([⟨2, 0, 1, 0, 0⟩, ⟨1, 1, 2, 1, 1⟩] : List (Event ℚ))).map (·.1)).reverse := by decide +kernel

variable {σ : Type}

/-- **C170** runs with gardening after Costello et al.: the ice of the layers from any timestep on is what these
timesteps leave on their own. -/
theorem C170_run (g : Gen σ) (hg : LawfulGen g) (c : RunCfg) (d : RunData) (hc : PhysicalCfg c)
    (hd : PhysicalData c d) (hnd : c.coldtrap_names.Nodup) (hcost : c.impact_gardening_costello = true)
    (out : CsvOut) (hrun : runMain g c d = .ok out) :
    ∃ df s time delivered s' dists thick bd bf, craterBasinList g c d (g.init c.seed) = .ok (df, s) ∧
      getTimeArray c.timestart c.timeend c.timestep = .ok time ∧
      iceCols g c d df time s = .ok (delivered, s') ∧
      coldtrapDists c.ej (df.map (·.rest.crater)) c.coldtrap_names = .ok dists ∧
      thicknessMatrix c df dists = .ok thick ∧ bsedArrays c d time df dists thick = .ok (bd, bf) ∧
      ∀ (j : Nat) name, c.coldtrap_names[j]? = some name → ∃ (ice ej : List ℝ) (vs : List (Event ℝ)),
        out.ice.get name = .ok ice ∧ out.ej.get name = .ok ej ∧ vs.length = time.length ∧
        vs.map (·.ej) = ej ∧ vs.map (·.overturn) = overturnDepth c.overturn time ∧
        (∀ (t : Nat) v, vs[t]? = some v → (delivered[t]?).bind (·[j]?) = some v.ice ∧
          (bd[t]?).bind (·[j]?) = some v.bsedDepth ∧ (bf[t]?).bind (·[j]?) = some v.bsedFrac) ∧
        ∀ k, ice.drop k = ((layDown [] (vs.drop k)).map (·.1)).reverse := by
  obtain ⟨df, s, time, delivered, s', dists, thick, bd, bf, h1, h2, h3, h4, h5, h6, h7⟩ :=
    C142_run g hg c d hc hd hnd hcost out hrun
  refine ⟨df, s, time, delivered, s', dists, thick, bd, bf, h1, h2, h3, h4, h5, h6, ?_⟩
  intro j name hj
  obtain ⟨ice, ej, vs, k1, k2, k3, k4, k5, k6, k7⟩ := h7 j name hj
  exact ⟨ice, ej, vs, k1, k2, k3, k4, k5, k6, fun k => by rw [k7, drop_layers]⟩

/-- **C170** runs with the erosion of Cannon et al. and without sedimentation: the same. -/
theorem C170_run_eroded (g : Gen σ) (hg : LawfulGen g) (c : RunCfg) (d : RunData) (hc : PhysicalCfg c)
    (hd : PhysicalData c d) (hnd : c.coldtrap_names.Nodup)
    (hcost : c.impact_gardening_costello = false) (hbs : c.ballistic_sed = false)
    (hed : 0 ≤ c.ice_erosion_rate * (c.timestep / 1e7)) (out : CsvOut) (hrun : runMain g c d = .ok out) :
    ∃ df s time delivered s', craterBasinList g c d (g.init c.seed) = .ok (df, s) ∧
      getTimeArray c.timestart c.timeend c.timestep = .ok time ∧
      iceCols g c d df time s = .ok (delivered, s') ∧ delivered.length = time.length ∧
      ∀ (j : Nat) name, c.coldtrap_names[j]? = some name → ∃ ys ice ej : List ℝ, ys.length = time.length ∧
        (∀ (i : Nat) row, delivered[i]? = some row → ys[i]? = row[j]? ∧ row[j]?.isSome = true) ∧
        out.ice.get name = .ok ice ∧ out.ej.get name = .ok ej ∧ ej.length = time.length ∧
        ∀ k, ice.drop k = (pile 0.4 (c.ice_erosion_rate * (c.timestep / 1e7)) [] ((ys.zip ej).drop k)).reverse := by
  obtain ⟨df, s, time, delivered, s', h1, h2, h3, h4, h5⟩ := C110_run g hg c d hc hd hnd hcost hbs hed out hrun
  refine ⟨df, s, time, delivered, s', h1, h2, h3, h4, ?_⟩
  intro j name hj
  obtain ⟨ys, ice, ej, k1, k2, k3, k4, k5, k6, -, -⟩ := h5 j name hj
  exact ⟨ys, ice, ej, k1, k2, k3, k4, k5, fun k => by rw [k6, drop_pile]⟩

/-! ## Volcanism -/

/-- A configuration with the volcanism of another. -/
def withVolcanism (c o : RunCfg) : RunCfg :=
  { c with volc_early := o.volc_early, volc_late := o.volc_late, volc_early_pct := o.volc_early_pct,
           volc_late_pct := o.volc_late_pct, volc_total_vol := o.volc_total_vol, volc_ice_ppm := o.volc_ice_ppm,
           volc_magma_density := o.volc_magma_density }

theorem polarIce_volcanism (g : Gen σ) (c o : RunCfg) (lum : List (ℝ × ℝ)) (df : CraterTable)
    (time : List ℝ) (s : σ) : polarIce g (withVolcanism c o) lum df time s = polarIce g c lum df time s := by
  have hi : ∀ (c : RunCfg) s, impactIce g (withVolcanism c o) df time s = impactIce g c df time s := fun c s =>
    impactIce_same g c (withVolcanism c o) df time (fun _ => rfl) rfl rfl rfl (fun _ => rfl) (fun _ => rfl)
      (fun _ _ => rfl) (fun _ _ _ => rfl) rfl rfl s
  have hcm : ∀ s, impactIce g (withVolcanism c o).comet df time s = impactIce g c.comet df time s :=
    fun s => hi c.comet s
  unfold polarIce impactIceComet
  simp only [hi, hcm]
  rfl

/-- Volcanoes with either configuration bring nothing at time `t`. -/
def Quiet (c o : RunCfg) (t : ℝ) : Prop :=
  ¬ InEpoch c.volc_early t ∧ ¬ InEpoch c.volc_late t ∧ ¬ InEpoch o.volc_early t ∧ ¬ InEpoch o.volc_late t

theorem volc_quiet {c : RunCfg} {d : RunData} (hc : PhysicalCfg c) (hm : c.volc_mode = "Head") {time v : List ℝ}
    (h : volcanicIce c.volc_mode c.ice c.head (fun x => (roundHalfEven x : ℝ)) d.sortNk RunCfg.rtol c.timestep time d.nk =
      .ok v) (i : Nat) (t : ℝ) (ht : time[i]? = some t) (h1 : ¬ InEpoch c.volc_early t) (h2 : ¬ InEpoch c.volc_late t) :
    v[i]? = some 0 := by
  rw [(C46_mode _ _ _ _ _ _ _ _ _).1 hm] at h
  have h' : thicknessOf c (volcanicHead c.head time) = .ok v := h
  rw [thicknessOf_eq hc] at h'
  injection h' with h'
  obtain ⟨-, l2⟩ := C45_steps c.head time
  obtain ⟨y, y1, -, -, y4⟩ := l2 i t ht
  rw [← h', List.getElem?_map, y1, y4 h2 h1, Option.map_some, mul_zero]

/-- Where volcanoes are quiet the same ice is delivered. -/
theorem delivered_quiet (g : Gen σ) (hg : LawfulGen g) (c o : RunCfg) (d : RunData) (hc : PhysicalCfg c)
    (hc' : PhysicalCfg (withVolcanism c o)) (hd : PhysicalData c d) (hd' : PhysicalData (withVolcanism c o) d)
    (df : CraterTable) (hdf : ∀ r ∈ df, r.rest.crater.isbasin = true → 0 < r.rest.crater.rad) (time : List ℝ)
    (hne : time ≠ []) (s s1 s2 : σ) (rows rows' : List (List ℝ)) (h : iceCols g c d df time s = .ok (rows, s1))
    (h' : iceCols g (withVolcanism c o) d df time s = .ok (rows', s2)) (i : Nat) (t : ℝ) (ht : time[i]? = some t)
    (hq : Quiet c o t) (j : Nat) (name : String) (hj : c.coldtrap_names[j]? = some name) :
    (rows'[i]?).bind (·[j]?) = (rows[i]?).bind (·[j]?) := by
  obtain ⟨p, sp, e1, n1⟩ := polarIce_ok g hg hc hd df hdf time hne s
  obtain ⟨v, e2, n2⟩ := volcanicIce_ok hc hd time
  obtain ⟨v', e2', n2'⟩ := volcanicIce_ok hc' hd' time
  obtain ⟨hop, κ, -, -, -, hcol⟩ := iceColsTime_column hc hd time.length j name hj
  obtain ⟨r, r1, r2, r3, r4⟩ := hcol p v n1 n2
  obtain ⟨r', r1', r2', r3', r4'⟩ := hcol p v' n1 n2'
  have e1' : polarIce g (withVolcanism c o) (readLuminosity d.lum) df time s = .ok (p, sp) := by
    rw [polarIce_volcanism]
    exact e1
  have r1'' : iceColsTime (withVolcanism c o).cols d.hop p v' = .ok r' := r1'
  unfold iceCols at h h'
  simp only [bind, Except.bind, e1, e2, r1] at h
  simp only [bind, Except.bind, e1', e2', r1''] at h'
  injection h with h
  injection h with h _
  injection h' with h'
  injection h' with h' _
  subst h h'
  have hjn : j < c.coldtrap_names.length := (List.getElem?_eq_some_iff.1 hj).1
  have hil : i < time.length := (List.getElem?_eq_some_iff.1 ht).1
  obtain ⟨-, cs⟩ := column_spec hjn r r3
  obtain ⟨-, cs'⟩ := column_spec hjn r' r3'
  have ir : i < r.length := by rw [r2]; exact hil
  have ir' : i < r'.length := by rw [r2']; exact hil
  have ip : i < p.length := by rw [n1.1]; exact hil
  rw [List.getElem?_eq_getElem ir, List.getElem?_eq_getElem ir', Option.bind_some, Option.bind_some,
    ← cs i _ (List.getElem?_eq_getElem ir), ← cs' i _ (List.getElem?_eq_getElem ir'), r4, r4',
    addArr_some (scaleArr_some (List.getElem?_eq_getElem ip))
      (scaleArr_some (volc_quiet hc hd.volc.1 e2 i t ht hq.1 hq.2.1)),
    addArr_some (scaleArr_some (List.getElem?_eq_getElem ip))
      (scaleArr_some (volc_quiet hc' hd'.volc.1 e2' i t ht hq.2.2.1 hq.2.2.2))]

/-- **C170** Two runs with the same seed that differ only in their volcanism have the same ice in all layers laid down
after the last eruption of either. -/
theorem C170_volcanism (g : Gen σ) (hg : LawfulGen g) (c o : RunCfg) (d : RunData) (hc : PhysicalCfg c)
    (hc' : PhysicalCfg (withVolcanism c o)) (hd : PhysicalData c d) (hd' : PhysicalData (withVolcanism c o) d)
    (hnd : c.coldtrap_names.Nodup)
    (hmode : c.impact_gardening_costello = true ∨ c.impact_gardening_costello = false ∧ c.ballistic_sed = false ∧
      0 ≤ c.ice_erosion_rate * (c.timestep / 1e7)) (out out' : CsvOut)
    (hrun : runMain g c d = .ok out) (hrun' : runMain g (withVolcanism c o) d = .ok out') (name : String)
    (hn : name ∈ c.coldtrap_names) :
    ∃ time ice ice' ej, getTimeArray c.timestart c.timeend c.timestep = .ok time ∧
      out.ice.get name = .ok ice ∧ out'.ice.get name = .ok ice' ∧ out.ej.get name = .ok ej ∧
      out'.ej.get name = .ok ej ∧ ice.length = time.length ∧
      ∀ k, (∀ (i : Nat) t, k ≤ i → time[i]? = some t → Quiet c o t) → ice'.drop k = ice.drop k := by
  obtain ⟨j, hj⟩ := List.mem_iff_getElem?.1 hn
  obtain ⟨ejs, e1, e2⟩ := C121_ejecta g hg c (withVolcanism c o) d d
    ⟨rfl, rfl, rfl, rfl, rfl, rfl, rfl, rfl, rfl, rfl, rfl, rfl, rfl⟩ rfl rfl hc hc' hd hd' hnd
    out out' hrun hrun' name hn
  rcases hmode with hcost | ⟨hcost, hbs, hed⟩
  · obtain ⟨df, s, time, del, s', dists, thick, bd, bf, h1, h2, h3, h4, h5, h6, h7⟩ :=
      C142_run g hg c d hc hd hnd hcost out hrun
    obtain ⟨df', t, time', del', t', dists', thick', bd', bf', b1, b2, b3, b4, b5, b6, b7⟩ :=
      C142_run g hg (withVolcanism c o) d hc' hd' hnd hcost out' hrun'
    have hdf : (Except.ok (df', t) : Except PyErr _) = .ok (df, s) := b1.symm.trans h1
    injection hdf with hdf
    injection hdf with hdf hs
    subst hdf hs
    have ht : (Except.ok time' : Except PyErr _) = .ok time := b2.symm.trans h2
    injection ht with ht
    subst ht
    have hdi : (Except.ok dists' : Except PyErr _) = .ok dists := b4.symm.trans h4
    injection hdi with hdi
    subst hdi
    have hth : (Except.ok thick' : Except RunErr _) = .ok thick := b5.symm.trans h5
    injection hth with hth
    subst hth
    have hbd : (Except.ok (bd', bf') : Except PyErr _) = .ok (bd, bf) := b6.symm.trans h6
    injection hbd with hbd
    injection hbd with hbd hbf
    subst hbd hbf
    obtain ⟨ice, ej, vs, k1, k2, k3, k4, k5, k6, k7⟩ := h7 j name hj
    obtain ⟨ice', ej', vs', l1, l2, l3, l4, l5, l6, l7⟩ := b7 j name hj
    have hlen : ice.length = time'.length := by
      rw [k7, List.length_reverse, List.length_map, layDown_length, ← k3]
      simp
    refine ⟨time', ice, ice', ejs, h2, k1, l1, e1, e2, hlen, ?_⟩
    intro k hk
    rw [k7, l7, drop_layers, drop_layers]
    congr 3
    apply List.ext_getElem?
    intro i
    rw [List.getElem?_drop, List.getElem?_drop]
    rcases Nat.lt_or_ge (k + i) time'.length with hi | hi
    · have iv : k + i < vs.length := by rw [k3]; exact hi
      have iv' : k + i < vs'.length := by rw [l3]; exact hi
      have hne : time' ≠ [] := by intro h0; rw [h0] at hi; simp at hi
      obtain ⟨m1, m2, m3⟩ := k6 _ _ (List.getElem?_eq_getElem iv)
      obtain ⟨m1', m2', m3'⟩ := l6 _ _ (List.getElem?_eq_getElem iv')
      have hdel := delivered_quiet g hg c o d hc hc' hd hd' df' (craterBasinList_rad g hd _ _ _ h1) time' hne t _ _ del
        del' h3 b3 (k + i) _ (List.getElem?_eq_getElem hi) (hk _ _ (Nat.le_add_right _ _) (List.getElem?_eq_getElem hi))
        j name hj
      rw [m1, m1', Option.some.injEq] at hdel
      rw [m2', Option.some.injEq] at m2
      rw [m3', Option.some.injEq] at m3
      rw [List.getElem?_eq_getElem iv, List.getElem?_eq_getElem iv']
      congr 1
      have he : vs'.map (·.ej) = vs.map (·.ej) := by
        rw [k4, l4]
        rw [k2, Except.ok.injEq] at e1
        rw [l2, Except.ok.injEq] at e2
        rw [e1, e2]
      have he' : vs'[k + i].ej = vs[k + i].ej := by
        have := congrArg (·[k + i]?) he
        simp only [List.getElem?_map, List.getElem?_eq_getElem iv, List.getElem?_eq_getElem iv', Option.map_some,
          Option.some.injEq] at this
        exact this
      have ho : vs'.map (·.overturn) = vs.map (·.overturn) := by rw [k5, l5]; rfl
      have ho' : vs'[k + i].overturn = vs[k + i].overturn := by
        have := congrArg (·[k + i]?) ho
        simp only [List.getElem?_map, List.getElem?_eq_getElem iv, List.getElem?_eq_getElem iv', Option.map_some,
          Option.some.injEq] at this
        exact this
      cases hv : vs[k + i]
      cases hv' : vs'[k + i]
      rw [hv, hv'] at hdel m2 m3 he' ho'
      simp only at hdel m2 m3 he' ho'
      rw [hdel, m2, m3, he', ho']
    · rw [List.getElem?_eq_none (by omega), List.getElem?_eq_none (by omega)]
  · obtain ⟨df, s, time, del, s', h1, h2, h3, h4, h5⟩ := C110_run g hg c d hc hd hnd hcost hbs hed out hrun
    obtain ⟨df', t, time', del', t', b1, b2, b3, b4, b5⟩ :=
      C110_run g hg (withVolcanism c o) d hc' hd' hnd hcost hbs hed out' hrun'
    have hdf : (Except.ok (df', t) : Except PyErr _) = .ok (df, s) := b1.symm.trans h1
    injection hdf with hdf
    injection hdf with hdf hs
    subst hdf hs
    have ht : (Except.ok time' : Except PyErr _) = .ok time := b2.symm.trans h2
    injection ht with ht
    subst ht
    obtain ⟨ys, ice, ej, k1, k2, k3, k4, k5, k6, -, -⟩ := h5 j name hj
    obtain ⟨ys', ice', ej', l1, l2, l3, l4, l5, l6, -, -⟩ := b5 j name hj
    rw [k4, Except.ok.injEq] at e1
    rw [l4, Except.ok.injEq] at e2
    subst e1 e2
    refine ⟨time', ice, ice', ej', h2, k3, l3, k4, l4, (by
      rw [k6, List.length_reverse, pile_length, List.length_zip, k1, k5]; simp), ?_⟩
    intro k hk
    rw [k6, l6, drop_pile, drop_pile]
    congr 2
    rw [show ys.zip ej' = List.zipWith Prod.mk ys ej' from rfl, show ys'.zip ej' = List.zipWith Prod.mk ys' ej' from rfl,
      List.drop_zipWith, List.drop_zipWith]
    congr 1
    apply List.ext_getElem?
    intro i
    rw [List.getElem?_drop, List.getElem?_drop]
    rcases Nat.lt_or_ge (k + i) time'.length with hi | hi
    · have hne : time' ≠ [] := by intro h0; rw [h0] at hi; simp at hi
      have hdel := delivered_quiet g hg c o d hc hc' hd hd' df' (craterBasinList_rad g hd _ _ _ h1) time' hne t _ _ del
        del' h3 b3 (k + i) _ (List.getElem?_eq_getElem hi) (hk _ _ (Nat.le_add_right _ _) (List.getElem?_eq_getElem hi))
        j name hj
      have ir : k + i < del.length := by rw [h4]; exact hi
      have ir' : k + i < del'.length := by rw [b4]; exact hi
      rw [List.getElem?_eq_getElem ir, List.getElem?_eq_getElem ir', Option.bind_some, Option.bind_some] at hdel
      rw [(k2 _ _ (List.getElem?_eq_getElem ir)).1, (l2 _ _ (List.getElem?_eq_getElem ir')).1, hdel]
    · rw [List.getElem?_eq_none (by omega), List.getElem?_eq_none (by omega)]

/-- **C170** With the default configuration and the shipped files every layer laid down in the last 2 Gyr holds the same
ice however much the volcanoes released, whatever the seed. -/
theorem C170_default (g : Gen σ) (hg : LawfulGen g) (nk : List (ℝ × ℝ)) (sortAges : CraterTable → CraterTable)
    (sortNk : List (ℝ × ℝ) → List (ℝ × ℝ)) (setOrder : List (List Char) → List (List Char))
    (hs : Spec.SortDesc sortAges) (seed : Int) (vol : ℝ) (hv : 0 ≤ vol)
    (name : String) (hn : name ∈ (RunCfg.default seed).coldtrap_names) :
    ∃ out out' ice ice', runMain g (RunCfg.default seed) (shippedData nk sortAges sortNk setOrder) = .ok out ∧
      runMain g { RunCfg.default seed with volc_total_vol := vol } (shippedData nk sortAges sortNk setOrder) = .ok out' ∧
      out.ice.get name = .ok ice ∧ out'.ice.get name = .ok ice' ∧ ice.length = 425 ∧
      ∀ i, 225 ≤ i → ice'[i]? = ice[i]? := by
  have hc := default_physical seed
  have hd := default_data nk sortAges sortNk setOrder hs seed
  have hr := default_runnable nk sortAges sortNk setOrder seed
  obtain ⟨o, ho⟩ : ∃ o : RunCfg, o = { RunCfg.default seed with volc_total_vol := vol } := ⟨_, rfl⟩
  have hw : withVolcanism (RunCfg.default seed) o = { RunCfg.default seed with volc_total_vol := vol } := by
    rw [ho]; rfl
  have hc' : PhysicalCfg { RunCfg.default seed with volc_total_vol := vol } := { hc with }
  have hd' : PhysicalData { RunCfg.default seed with volc_total_vol := vol } (shippedData nk sortAges sortNk setOrder) :=
    { hd with volc := ⟨hd.volc.1, hv, hd.volc.2.2⟩ }
  have hr' : Runnable { RunCfg.default seed with volc_total_vol := vol } (shippedData nk sortAges sortNk setOrder) :=
    { hr with }
  obtain ⟨out, hrun⟩ := C72_returns g hg _ _ hc hd hr
  obtain ⟨out', hrun'⟩ := C72_returns g hg _ _ hc' hd' hr'
  rw [← hw] at hc' hd' hrun'
  obtain ⟨time, ice, ice', ej, h1, h2, h3, -, -, h4, h5⟩ :=
    C170_volcanism g hg _ o _ hc hc' hd hd' hr.nodup (Or.inl rfl) out out' hrun hrun' name hn
  obtain ⟨time', t1, t2⟩ := default_time seed
  rw [t1] at h1
  injection h1 with h1
  subst h1
  have hlen : time'.length = 425 := by rw [t2]; simp [uniformGrid]
  refine ⟨out, out', ice, ice', hrun, hw ▸ hrun', h2, h3, h4.trans hlen, ?_⟩
  have h6 := h5 225 (by
    intro i t hi ht
    rw [t2] at ht
    unfold uniformGrid at ht
    rw [List.getElem?_map, Option.map_eq_some_iff] at ht
    obtain ⟨m, m1, m2⟩ := ht
    have hm : m = i := by
      rw [List.getElem?_eq_some_iff] at m1
      obtain ⟨_, m1⟩ := m1
      rw [List.getElem_range] at m1
      exact m1.symm
    subst hm
    change (4.25e9 : ℝ) - ((m : Nat) : ℝ) * 10e6 = t at m2
    have hm' : (225 : ℝ) ≤ (m : ℝ) := by exact_mod_cast hi
    have ht : t ≤ 2e9 := by rw [← m2]; norm_num; linarith
    have q : ∀ e : ℝ × ℝ, (2e9 : ℝ) ≤ e.2 → ¬ InEpoch e t := fun e he h => by
      have := h.1
      linarith
    refine ⟨q _ ?_, q _ ?_, q _ ?_, q _ ?_⟩
    · simp only [RunCfg.default]; norm_num
    · simp only [RunCfg.default]; norm_num
    · rw [ho]; simp only [RunCfg.default]; norm_num
    · rw [ho]; simp only [RunCfg.default]; norm_num)
  intro i hi
  obtain ⟨m, rfl⟩ := Nat.exists_eq_add_of_le hi
  have := congrArg (·[m]?) h6
  simpa only [List.getElem?_drop] using this

/-- The hypotheses hold with no magma at all. -/
example : ∃ out out' ice ice', runMain constGen (RunCfg.default 1) (shippedData [] sortDesc id id) = .ok out ∧
    runMain constGen { RunCfg.default 1 with volc_total_vol := 0 } (shippedData [] sortDesc id id) = .ok out' ∧
    out.ice.get "Haworth" = .ok ice ∧ out'.ice.get "Haworth" = .ok ice' ∧ ice.length = 425 ∧
    ∀ i, 225 ≤ i → ice'[i]? = ice[i]? :=
  C170_default constGen constGen_lawful [] sortDesc id id sortDesc_spec 1 0 le_rfl "Haworth" (by decide +kernel)

end MoonPIES
