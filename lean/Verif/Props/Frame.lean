import Verif.Props.MainEjecta
import Verif.Props.Gentler

/-!
# C121: what the ejecta of a run depends on
-/

namespace MoonPIES

open Spec

variable {σ : Type}

/-- Spec: two configurations agree on the seed, the times, the cold traps and the parameters of
ejecta; everything else may differ. -/
structure Spec.SameEjecta (c c' : RunCfg) : Prop where
  seed : c'.seed = c.seed
  timestart : c'.timestart = c.timestart
  timeend : c'.timeend = c.timeend
  timestep : c'.timestep = c.timestep
  names : c'.coldtrap_names = c.coldtrap_names
  s2c : c'.simple2complex = c.simple2complex
  c2p : c'.complex2peakring = c.complex2peakring
  rad : c'.rad_moon = c.rad_moon
  grav : c'.grav_moon = c.grav_moon
  angle : c'.impact_angle = c.impact_angle
  exp : c'.ej_thickness_exp = c.ej_thickness_exp
  threshold : c'.ej_threshold = c.ej_threshold
  basinThreshold : c'.basin_ej_threshold = c.basin_ej_threshold

theorem Spec.SameEjecta.ej {c c' : RunCfg} (h : SameEjecta c c') : c'.ej = c.ej := by
  unfold RunCfg.ej
  rw [h.s2c, h.c2p, h.rad, h.grav, h.angle, h.exp, h.threshold, h.basinThreshold]

/-- Age and crater of a row, without the impactor. -/
def dated (r : CraterAge ℝ CraterCols) : ℝ × Crater := (r.age, r.rest.crater)

theorem newAges_dated (ts : ℝ) (z : Nat → ℝ) : ∀ (rows rows' : CraterTable) (k : Nat) (mid mid' : CraterTable),
    List.Forall₂ (fun r r' => r'.age = r.age ∧ r'.ageLow = r.ageLow ∧ r'.ageUpp = r.ageUpp ∧
      r'.rest.crater = r.rest.crater) rows rows' →
    newAges ts z k rows = .ok mid → newAges ts z k rows' = .ok mid' → mid'.map dated = mid.map dated
  | [], _, k, mid, mid', hr, h, h' => by
    cases hr
    cases h; cases h'; rfl
  | r :: rows, _, k, mid, mid', hr, h, h' => by
    cases hr with
    | @cons _ r' _ rows' h1 h2 =>
    unfold newAges at h h'
    obtain ⟨a, e1, h⟩ := bind_ok_inv h
    obtain ⟨as, e2, h⟩ := bind_ok_inv h
    obtain ⟨b, f1, h'⟩ := bind_ok_inv h'
    obtain ⟨bs, f2, h'⟩ := bind_ok_inv h'
    cases h; cases h'
    have hs : sigOf r' = sigOf r := by unfold sigOf; rw [h1.2.1, h1.2.2.1]
    have hone : dated b = dated a := by
      unfold newAge at e1 f1
      split at e1
      · cases e1
      · split at e1
        · split at f1
          · cases f1
          · split at f1
            · cases e1; cases f1
              unfold dated
              simp only [h1.1, h1.2.2.2, hs]
            · cases f1
        · cases e1
    rw [List.map_cons, List.map_cons, hone, newAges_dated ts z rows rows' (k + 1) as bs h2 e2 f2]

theorem zip_dated (l : List RawCrater) : ∀ (u v : List String), u.length = l.length → v.length = l.length →
    List.Forall₂ (fun r r' : CraterAge ℝ CraterCols => r'.age = r.age ∧ r'.ageLow = r.ageLow ∧ r'.ageUpp = r.ageUpp ∧
      r'.rest.crater = r.rest.crater)
      (List.zipWith (fun r icy => readRow true icy r) l u) (List.zipWith (fun r icy => readRow true icy r) l v) := by
  induction l with
  | nil => intro u v _ _; simp
  | cons x l ih =>
    intro u v hu hv
    cases u with
    | nil => cases hu
    | cons a u =>
      cases v with
      | nil => cases hv
      | cons b v => exact .cons ⟨rfl, rfl, rfl, rfl⟩ (ih u v (by simpa using hu) (by simpa using hv))

/-- The craters and their ages do not depend on the options about ice. -/
theorem table_dated (g : Gen σ) (hg : LawfulGen g) (c c' : RunCfg) (d d' : RunData) (hts : c'.timestep = c.timestep)
    (hcr : d'.craters = d.craters) (hba : d'.basins = d.basins) (hs : SortDesc d.sortAges)
    (hs' : SortDesc d'.sortAges) (s t t' : σ) (df df' : CraterTable)
    (h : craterBasinList g c d s = .ok (df, t)) (h' : craterBasinList g c' d' s = .ok (df', t')) :
    (df'.map dated).Perm (df.map dated) := by
  have hraw : List.Forall₂ (fun r r' : CraterAge ℝ CraterCols => r'.age = r.age ∧ r'.ageLow = r.ageLow ∧
      r'.ageUpp = r.ageUpp ∧ r'.rest.crater = r.rest.crater) (rawTable g c d s) (rawTable g c' d' s) := by
    unfold rawTable
    rw [hcr, hba]
    refine List.rel_append (by exact List.forall₂_same.2 fun r _ => ⟨rfl, rfl, rfl, rfl⟩) (zip_dated _ _ _ ?_ ?_)
    · rw [icyBasins_length, hg.random_length]
    · rw [icyBasins_length, hg.random_length]
  have hargs : (rawTable g c' d' s).map (fun r => (truncA r, truncB r)) =
      (rawTable g c d s).map (fun r => (truncA r, truncB r)) := by
    generalize rawTable g c d s = l at hraw
    generalize rawTable g c' d' s = l' at hraw
    induction hraw with
    | nil => rfl
    | cons h _ ih =>
      rw [List.map_cons, List.map_cons, ih]
      unfold truncA truncB sigOf
      rw [h.2.1, h.2.2.1]
  have inv : ∀ (c : RunCfg) (d : RunData) (df : CraterTable) (t : σ), craterBasinList g c d s = .ok (df, t) →
      ∃ mid, newAges c.timestep (fun i => (g.truncnormEach ((rawTable g c d s).map (fun r => (truncA r, truncB r)))
        (g.random d.basins.length s).2).1.getD i 0) 0 (rawTable g c d s) = .ok mid ∧ df = d.sortAges mid := by
    intro c d df t h
    unfold craterBasinList at h
    simp only [] at h
    change (randomizeAges d.sortAges c.timestep (fun i => (g.truncnormEach ((rawTable g c d s).map
      (fun r => (truncA r, truncB r))) (g.random d.basins.length s).2).1.getD i 0)
      (rawTable g c d s)).bind _ = _ at h
    unfold randomizeAges at h
    cases h1 : newAges c.timestep (fun i => (g.truncnormEach ((rawTable g c d s).map (fun r => (truncA r, truncB r)))
        (g.random d.basins.length s).2).1.getD i 0) 0 (rawTable g c d s) with
    | error e => rw [h1] at h; cases h
    | ok mid =>
      rw [h1] at h
      injection h with h
      injection h with h _
      exact ⟨mid, rfl, h.symm⟩
  obtain ⟨mid, m1, rfl⟩ := inv c d df t h
  obtain ⟨mid', m2, rfl⟩ := inv c' d' df' t' h'
  rw [hargs, hba, hts] at m2
  have := newAges_dated _ _ _ _ _ _ _ hraw m1 m2
  exact ((hs' mid').1.map _).trans (this ▸ ((hs mid).1.map _).symm)

theorem coldtrapDist_perm (cfg : EjCfg) {df df' : List Crater} (hp : df'.Perm df) (row : Crater) (trap : String) :
    coldtrapDist cfg df' row trap = coldtrapDist cfg df row trap := by
  have hf := hp.filter (fun c => decide (c.cname = trap))
  unfold coldtrapDist
  simp only []
  generalize df'.filter (fun c => decide (c.cname = trap)) = l' at hf
  generalize df.filter (fun c => decide (c.cname = trap)) = l at hf
  match l, hf with
  | [], hf => rw [hf.eq_nil]
  | [t], hf => rw [List.perm_singleton.1 hf]
  | a :: b :: l, hf =>
    match l', hf.length_eq with
    | _ :: _ :: _, _ => rfl

open Classical in
/-- A sum over the dated rows. -/
theorem sum_dated (f : Crater → ℝ) (p : ℝ → Bool) : ∀ (df : CraterTable) (th : List ℝ),
    List.Forall₂ (fun r x => x = f r.rest.crater) df th →
    (((df.zip th).filter (fun q => p q.1.age)).map (·.2)).sum =
      ((df.map dated).map (fun q => if p q.1 then f q.2 else 0)).sum
  | [], _, h => by cases h; rfl
  | r :: df, _, h => by
    cases h with
    | @cons _ x _ th h1 h2 =>
    rw [List.zip_cons_cons, List.map_cons, List.map_cons, List.sum_cons, ← sum_dated f p df th h2, List.filter_cons]
    unfold dated
    simp only []
    split
    · rw [List.map_cons, List.sum_cons, h1]
    · rw [zero_add]

/-- The thickness a crater leaves, 0 if that is not a number. -/
noncomputable def leaves (cfg : EjCfg) (df : List Crater) (name : String) (cr : Crater) : ℝ :=
  match coldtrapDist cfg df cr name with
  | .ok dist => match ejThickness cfg dist cr.rad with
    | .fin x => x
    | _ => 0
  | _ => 0

theorem leaves_eq {c : RunCfg} {df : CraterTable} {name : String} {r : CraterAge ℝ CraterCols} {x : ℝ}
    (h : RowEjecta c df name r x) : x = leaves c.ej (df.map (·.rest.crater)) name r.rest.crater := by
  obtain ⟨dist, h1, h2⟩ := h
  unfold leaves
  rw [h1]
  simp only [h2]

/-- **C121** The ejecta of a run depends on the seed, the times, the cold traps, the parameters of ejecta
and the lists of craters and basins only: two runs that agree on these have the same ejecta at every cold
trap and time, whatever they assume about ice, comets, volcanoes, gardening, ballistic sedimentation and
thin layers, and however rows of the same age are ordered. -/
theorem C121_ejecta (g : Gen σ) (hg : LawfulGen g) (c c' : RunCfg) (d d' : RunData) (hsame : SameEjecta c c')
    (hcr : d'.craters = d.craters) (hba : d'.basins = d.basins)
    (hc : PhysicalCfg c) (hc' : PhysicalCfg c') (hd : PhysicalData c d) (hd' : PhysicalData c' d')
    (hnd : c.coldtrap_names.Nodup) (out out' : CsvOut) (hrun : runMain g c d = .ok out)
    (hrun' : runMain g c' d' = .ok out') :
    ∀ name ∈ c.coldtrap_names, ∃ ej, out.ej.get name = .ok ej ∧ out'.ej.get name = .ok ej := by
  classical
  obtain ⟨df, s, time, h1, h2, h3⟩ := C75_run_ejecta g hg c d hc hd hnd out hrun
  obtain ⟨df', s', time', h1', h2', h3'⟩ := C75_run_ejecta g hg c' d' hc' hd' (hsame.names ▸ hnd) out' hrun'
  rw [hsame.timestart, hsame.timeend, hsame.timestep, h2] at h2'
  injection h2' with h2'
  subst h2'
  rw [hsame.seed] at h1'
  have hp := table_dated g hg c c' d d' hsame.timestep hcr hba hd.sorted hd'.sorted _ _ _ _ _ h1 h1'
  have hpc : (df'.map (·.rest.crater)).Perm (df.map (·.rest.crater)) := by
    have := hp.map (·.2)
    rw [List.map_map, List.map_map] at this
    exact this
  intro name hn
  obtain ⟨ej, th, e1, e2, e3, e4⟩ := h3 name hn
  obtain ⟨ej', th', f1, f2, f3, f4⟩ := h3' name (hsame.names ▸ hn)
  refine ⟨ej, e1, ?_⟩
  rw [f1]
  congr 1
  apply List.ext_getElem?
  intro i
  rcases Nat.lt_or_ge i time.length with hi | hi
  · have g1 := List.getElem?_eq_getElem (show i < ej.length by omega)
    have g2 := List.getElem?_eq_getElem (show i < ej'.length by omega)
    rw [g1, g2, e4 i _ g1, f4 i _ g2]
    congr 1
    have w := sum_dated (leaves c.ej (df.map (·.rest.crater)) name)
      (fun a => decide (InRange RunCfg.rtol time a ∧ Nearest time a i)) df th
      (e3.imp fun _ _ h => leaves_eq h)
    have w' := sum_dated (leaves c.ej (df.map (·.rest.crater)) name)
      (fun a => decide (InRange RunCfg.rtol time a ∧ Nearest time a i)) df' th' (by
        refine f3.imp fun r x h => ?_
        rw [leaves_eq h, hsame.ej]
        unfold leaves
        rw [coldtrapDist_perm c.ej hpc])
    refine w'.trans (Eq.trans ?_ w.symm)
    exact (hp.map _).sum_eq
  · rw [List.getElem?_eq_none (by omega), List.getElem?_eq_none (by omega)]


/-- **C121** In the Cannon mode, which asks for no basin ejecta, no comets, no hops, no solar wind and the
old erosion, the ejecta of a run are those of the MoonPIES mode with the same seed. -/
theorem C121_modes (g : Gen σ) (hg : LawfulGen g) (nk : List (ℝ × ℝ)) (sortAges : CraterTable → CraterTable)
    (sortNk : List (ℝ × ℝ) → List (ℝ × ℝ)) (setOrder : List (List Char) → List (List Char))
    (hs : SortDesc sortAges) (seed : Int) :
    ∃ out cannon, runMain g (RunCfg.default seed) (shippedData nk sortAges sortNk setOrder) = .ok out ∧
      runMain g (RunCfg.cannon seed) (shippedData nk sortAges sortNk setOrder) = .ok cannon ∧
      ∀ name ∈ ["Haworth", "Shoemaker", "Faustini", "Shackleton", "Slater", "Amundsen", "Cabeus",
        "Sverdrup", "de Gerlache", "Idel'son L", "Wiechert J", "Cabeus B"],
        ∃ ej, out.ej.get name = .ok ej ∧ cannon.ej.get name = .ok ej := by
  have hd := default_data nk sortAges sortNk setOrder hs seed
  have hd' := cannon_data nk sortAges sortNk setOrder hs seed
  have hr := default_runnable nk sortAges sortNk setOrder seed
  obtain ⟨out, h1⟩ := C72_returns g hg _ _ (default_physical seed) hd hr
  obtain ⟨out', h2⟩ := C72_returns g hg _ _ (cannon_physical seed) hd' (cannon_runnable nk sortAges sortNk setOrder seed)
  refine ⟨out, out', h1, h2, ?_⟩
  exact C121_ejecta g hg (RunCfg.default seed) (RunCfg.cannon seed) _ _ ⟨rfl, rfl, rfl, rfl, rfl, rfl, rfl, rfl, rfl, rfl, rfl, rfl, rfl⟩ rfl rfl
    (default_physical seed) (cannon_physical seed) hd hd' hr.nodup out out' h1 h2

/-- Spec: `c` with every option about the loss of ice, about ejecta thickness and about the tables taken
from `o`. -/
def Spec.withLosses (c o : RunCfg) : RunCfg :=
  { c with
    strat_after_age := o.strat_after_age
    thickness_min := o.thickness_min
    ejecta_basins := o.ejecta_basins
    ballistic_sed := o.ballistic_sed
    ballistic_sed_frac_lost := o.ballistic_sed_frac_lost
    mixing_ratio_petro := o.mixing_ratio_petro
    mixing_ratio_a := o.mixing_ratio_a
    mixing_ratio_b := o.mixing_ratio_b
    basin_ejecta_temp_warm := o.basin_ejecta_temp_warm
    polar_ejecta_temp_init := o.polar_ejecta_temp_init
    basin_ejecta_temp_init_warm := o.basin_ejecta_temp_init_warm
    basin_ejecta_temp_init_cold := o.basin_ejecta_temp_init_cold
    impact_gardening_costello := o.impact_gardening_costello
    ice_erosion_rate := o.ice_erosion_rate
    overturn_depth_present := o.overturn_depth_present
    overturn_ancient_slope := o.overturn_ancient_slope
    overturn_ancient_t0 := o.overturn_ancient_t0
    ej_thickness_exp := o.ej_thickness_exp
    ej_threshold := o.ej_threshold
    basin_ej_threshold := o.basin_ej_threshold }

theorem stochLoop_losses (g : Gen σ) (c o : RunCfg) (regime : String) (diams prob : List ℝ) :
    ∀ (counts : List Int) (s : σ), stochLoop g (withLosses c o) regime diams prob counts s =
      stochLoop g c regime diams prob counts s
  | [], _ => rfl
  | n :: rest, s => by
    have e : (fun t => stochLoop g (withLosses c o) regime diams prob rest t) =
        fun t => stochLoop g c regime diams prob rest t :=
      funext fun t => stochLoop_losses g c o regime diams prob rest t
    unfold stochLoop
    simp only [show ∀ t, stochLoop g (withLosses c o) regime diams prob rest t =
        stochLoop g c regime diams prob rest t from congrFun e]
    rfl

theorem impactIce_losses (g : Gen σ) (c o : RunCfg) (df : CraterTable) (time : List ℝ) (s : σ) :
    impactIce g (withLosses c o) df time s = impactIce g c df time s := by
  have e : ∀ r t, iceStochastic g (withLosses c o) time r t = iceStochastic g c time r t := by
    intro r t
    unfold iceStochastic
    simp only [stochLoop_losses]
    rfl
  have n : nonBasinIce g (withLosses c o) time s = nonBasinIce g c time s := by
    unfold nonBasinIce
    simp only [e]
    rfl
  unfold impactIce
  rw [n]
  rfl

theorem polarIce_losses (g : Gen σ) (c o : RunCfg) (lum : List (ℝ × ℝ)) (df : CraterTable) (time : List ℝ) (s : σ) :
    polarIce g (withLosses c o) lum df time s = polarIce g c lum df time s := by
  have h1 := impactIce_losses g c o df time s
  have h2 : ∀ t, impactIceComet g (withLosses c o) df time t = impactIceComet g c df time t :=
    fun t => impactIce_losses g c.comet o df time t
  unfold polarIce
  simp only [h1, h2]
  rfl

/-- **C121** Whatever is assumed about the loss of ice and about ejecta, the crater table and the ice each
cold trap starts with are the same: neither moves the random numbers. -/
theorem C121_delivered (g : Gen σ) (c o : RunCfg) (d : RunData) (melt : MeltTable ℝ) (hnd : c.coldtrap_names.Nodup)
    (st st' : Setup σ) (h : setup g c d = .ok st) (h' : setup g (withLosses c o) { d with melt := melt } = .ok st') :
    st'.time = st.time ∧ st'.df = st.df ∧
    ∀ name ∈ c.coldtrap_names, ∃ col col', st.cols.get name = .ok col ∧ st'.cols.get name = .ok col' ∧
      col'.ice = col.ice := by
  obtain ⟨s1, s2, dists, thick, a1, a2, -, -, a5, -, -⟩ := setup_inv g c d st h
  obtain ⟨s1', s2', dists', thick', b1, b2, -, -, b5, -, -⟩ := setup_inv g _ _ st' h'
  have ht : st'.time = st.time := by
    have : Except.ok st'.time = (Except.ok st.time : Except PyErr _) := b1.symm.trans a1
    injection this
  have hdf : (Except.ok (st'.df, s1') : Except PyErr _) = .ok (st.df, s1) := b2.symm.trans a2
  injection hdf with hdf
  injection hdf with hdf hs
  obtain ⟨ej, ice, -, a6, a7⟩ := initStratCols_inv _ _ _ _ _ _ _ _ _ a5
  obtain ⟨ej', ice', -, b6, b7⟩ := initStratCols_inv _ _ _ _ _ _ _ _ _ b5
  rw [ht, hdf, hs] at b6
  have hp := polarIce_losses g c o (readLuminosity d.lum) st.df st.time s1
  have hq : iceCols g (withLosses c o) { d with melt := melt } st.df st.time s1 = iceCols g c d st.df st.time s1 := by
    unfold iceCols
    exact congrArg (fun x => Except.bind x _) hp
  rw [hq] at b6
  have hi : (Except.ok (ice', s2') : Except PyErr _) = .ok (ice, s2) := b6.symm.trans a6
  injection hi with hi
  injection hi with hi _
  subst hi
  refine ⟨ht, hdf, fun name hn => ?_⟩
  obtain ⟨k, hk⟩ := List.mem_iff_getElem?.1 hn
  obtain ⟨e, -, e2⟩ := (buildCols_spec _ _ _ _ _ _ hnd a7).1 k name hk
  obtain ⟨e', -, e2'⟩ := (buildCols_spec _ _ _ _ _ _ hnd b7).1 k name hk
  exact ⟨_, _, e2, e2', rfl⟩

/-- The hypotheses are met by the two modes with seed 1 and a generator that always draws the same. -/
example : ∃ out cannon ej, runMain constGen (RunCfg.default 1) (shippedData [] sortDesc id id) = .ok out ∧
    runMain constGen (RunCfg.cannon 1) (shippedData [] sortDesc id id) = .ok cannon ∧
    out.ej.get "Haworth" = .ok ej ∧ cannon.ej.get "Haworth" = .ok ej := by
  obtain ⟨o, o', h1, h2, h3⟩ := C121_modes constGen constGen_lawful [] sortDesc id id sortDesc_spec 1
  obtain ⟨ej, h4, h5⟩ := h3 "Haworth" (by decide +kernel)
  exact ⟨o, o', ej, h1, h2, h4, h5⟩

/-- Both set-ups exist without sedimentation and with basins excluded. -/
example : ∃ st st' : Setup Unit, setup constGen (RunCfg.default 1) (shippedData [] sortDesc id id) = .ok st ∧
    setup constGen (withLosses (RunCfg.default 1) (RunCfg.cannon 1)) (shippedData [] sortDesc id id) = .ok st' ∧
    withLosses (RunCfg.default 1) (RunCfg.cannon 1) ≠ RunCfg.default 1 := by
  have hc := default_physical 1
  have hd := default_data [] sortDesc id id sortDesc_spec 1
  have hr := default_runnable [] sortDesc id id 1
  obtain ⟨st, h, -⟩ := setup_ok constGen constGen_lawful hc hd hr
  obtain ⟨st', h', -⟩ := setup_ok constGen constGen_lawful (c := withLosses (RunCfg.default 1) (RunCfg.cannon 1))
    { hc with } { hd with } { hr with covers := (fun h => by cases h) }
  exact ⟨st, st', h, h', fun h => by simpa [withLosses, RunCfg.default, RunCfg.cannon] using congrArg RunCfg.ballistic_sed h⟩

end MoonPIES
