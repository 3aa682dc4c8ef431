import Verif.Props.AllEjecta

/-!
# C183: layers of different cold traps correlate
-/

namespace MoonPIES

open Spec

variable {σ : Type}

/-- Spec: `r` comes before `r'` in a table, so that it lies below it. -/
def Spec.Below (table : List (StratRow ℝ)) (r r' : StratRow ℝ) : Prop :=
  ∃ a b e, table = a ++ r :: (b ++ r' :: e)

/-- **C183** every run that returns, with plain and distinct names and a descending time array: the layers of two cold traps that
name one crater have one time. Two craters that both tables name are in one layer in one table exactly if they are in the
other, and the layer of one lies below that of the other in both tables or in neither. -/
theorem C183_run (g : Gen σ) (hg : LawfulGen g) (c : RunCfg) (d : RunData) (hc : PhysicalCfg c)
    (hd : PhysicalData c d) (hl : Lunar c d) (hnd : c.coldtrap_names.Nodup) (hmin : 0 ≤ c.thickness_min)
    (hdt : 0 < c.timestep) (hts : c.timestep < c.timestart) (hspan : c.timestep ≤ c.timestart - c.timeend)
    (hplain : ∀ r ∈ d.craters ++ d.basins, PlainName r.cname)
    (hnames : ((d.craters ++ d.basins).map (·.cname)).Nodup) (out : CsvOut) (hrun : runMain g c d = .ok out) :
    ∃ df s, craterBasinList g c d (g.init c.seed) = .ok (df, s) ∧
      ∀ n1 ∈ c.coldtrap_names, ∀ n2 ∈ c.coldtrap_names, ∃ t1 t2, out.strat.get n1 = .ok t1 ∧ out.strat.get n2 = .ok t2 ∧
        ∀ q ∈ df, ∀ r1 ∈ t1, ∀ r2 ∈ t2, Named q.rest.crater.cname r1 → Named q.rest.crater.cname r2 →
          r1.time = r2.time ∧
          ∀ q' ∈ df, ∀ r1' ∈ t1, ∀ r2' ∈ t2, Named q'.rest.crater.cname r1' → Named q'.rest.crater.cname r2' →
            (r1 = r1' ↔ r2 = r2') ∧ (Below t1 r1 r1' ↔ Below t2 r2 r2') := by
  obtain ⟨df, s, time, hdf, htime, hsteps⟩ := run_steps_nonneg g hg c d hc hd hl hnd out hrun
  obtain ⟨df', s', time', k1, k2, k3⟩ := C177_run g hg c d hc hd hl hnd hmin hdt hts hspan hplain hnames out hrun
  rw [hdf] at k1
  injection k1 with k1
  injection k1 with k1 _
  subst k1
  rw [htime] at k2
  injection k2 with k2
  subst k2
  obtain ⟨tl, hl1, -, -, hl2, -⟩ := C19_shape_partial c.timestart c.timeend c.timestep hdt hts hspan
  rw [htime] at hl1
  injection hl1 with hl1
  subst hl1
  have hpl : ∀ q ∈ df, PlainName q.rest.crater.cname := by
    intro q hq
    obtain ⟨r, r1, r2⟩ := df_names g c d hd.sorted df _ _ hdf q hq
    rw [← r2]; exact hplain r r1
  have hnot : ∀ q ∈ df, ∀ r : StratRow ℝ, Named q.rest.crater.cname r → r.label ≠ "Formation age" := by
    rintro q hq r ⟨ns, m1, m2, m3⟩ e
    have := join_one (List.ne_nil_of_mem m3) m1 (by decide) (m2.symm.trans e)
    rw [this, List.mem_singleton] at m3
    exact (hpl q hq).2.2.2.2 m3
  -- in each table: the time of a crater, and the order of two layers from their times
  have one : ∀ n ∈ c.coldtrap_names, ∃ t, out.strat.get n = .ok t ∧
      (∀ q ∈ df, ∀ r ∈ t, Named q.rest.crater.cname r → ∃ i, Nearest time q.age i ∧ time[i]? = some r.time) ∧
      ∀ q ∈ df, ∀ q' ∈ df, ∀ r ∈ t, ∀ r' ∈ t, Named q.rest.crater.cname r → Named q'.rest.crater.cname r' →
        (r = r' ↔ r.time = r'.time) ∧ (Below t r r' ↔ r'.time < r.time) := by
    intro n hn
    obtain ⟨trap, tm, tn, steps, table, -, -, a3, a4, a5, a6, th, -, a9⟩ := hsteps n hn
    have a9 := a9 (fun r hr => plain_good (hplain r hr))
    obtain ⟨trap', -, -, table', b1, -, b3⟩ := k3 n hn
    rw [a3] at b1
    injection b1 with b1
    subst b1
    have hdec : (steps.map (·.time)).Pairwise (· > ·) := by rw [a4]; exact hl2
    have hsrc : ∀ s ∈ steps, s.src ≠ "Formation age" := by
      intro st hst
      obtain ⟨i, hi⟩ := List.mem_iff_getElem?.1 hst
      rw [a9 i st hi]
      exact sources_not_formation hpl i
    refine ⟨table, a3, ?_, ?_⟩
    · intro q hq r hr hnm
      obtain ⟨x, -, -, w⟩ := b3 q hq
      exact (w r hr hnm).1
    · intro q hq q' hq' r hr r' hr' hnm hnm'
      obtain ⟨t1, t2⟩ := C181_table _ _ _ _ steps table hdec hsrc a6 a5 r r' hr hr' (hnot q hq r hnm) (hnot q' hq' r' hnm')
      refine ⟨⟨fun h => by rw [h], t1⟩, ⟨?_, fun h => (t2 h).1⟩⟩
      rintro ⟨a, b, e, htab⟩
      obtain ⟨top, layers, e1, e2, e3⟩ := layer_times _ _ _ _ _ _ hdec hsrc a5
      -- `r` is among the layers, and so is what comes after it
      have hpre : ∃ a', layers = a' ++ r :: (b ++ r' :: e) := by
        rw [htab] at e1
        rcases List.append_eq_append_iff.1 e1 with ⟨u, u1, u2⟩ | ⟨u, u1, u2⟩
        · cases u with
          | nil => exact ⟨[], by simpa using u2.symm⟩
          | cons z u =>
            rw [List.cons_append, List.cons.injEq] at u2
            exact absurd (e2 r (by rw [u1, ← u2.1]; simp)) (hnot q hq r hnm)
        · exact ⟨u, u2⟩
      obtain ⟨a', e4⟩ := hpre
      rw [e4, List.map_append, List.map_cons, List.pairwise_append, List.pairwise_cons] at e3
      exact e3.2.1.1 _ (List.mem_map_of_mem (by simp))
  refine ⟨df, s, hdf, ?_⟩
  intro n1 hn1 n2 hn2
  obtain ⟨t1, g1, f1, o1⟩ := one n1 hn1
  obtain ⟨t2, g2, f2, o2⟩ := one n2 hn2
  have same : ∀ q ∈ df, ∀ r1 ∈ t1, ∀ r2 ∈ t2, Named q.rest.crater.cname r1 → Named q.rest.crater.cname r2 →
      r1.time = r2.time := by
    intro q hq r1 hr1 r2 hr2 m1 m2
    obtain ⟨i, i1, i2⟩ := f1 q hq r1 hr1 m1
    obtain ⟨j, j1, j2⟩ := f2 q hq r2 hr2 m2
    rw [nearest_unique i1 j1, j2] at i2
    injection i2 with i2
    exact i2.symm
  refine ⟨t1, t2, g1, g2, ?_⟩
  intro q hq r1 hr1 r2 hr2 m1 m2
  refine ⟨same q hq r1 hr1 r2 hr2 m1 m2, ?_⟩
  intro q' hq' r1' hr1' r2' hr2' m1' m2'
  obtain ⟨a1, a2⟩ := o1 q hq q' hq' r1 hr1 r1' hr1' m1 m1'
  obtain ⟨b1, b2⟩ := o2 q hq q' hq' r2 hr2 r2' hr2' m2 m2'
  rw [a1, a2, b1, b2, same q hq r1 hr1 r2 hr2 m1 m2, same q' hq' r1' hr1' r2' hr2' m1' m2']
  exact ⟨Iff.rfl, Iff.rfl⟩

/-- C183 applies to every completed run of the default configuration. -/
example (seed : Int) (out : CsvOut)
    (hout : runMain constGen (RunCfg.default seed) (shippedData [] sortDesc id id) = .ok out) :=
  C183_run constGen constGen_lawful _ _ (default_physical seed) (default_data [] sortDesc id id sortDesc_spec seed)
    (default_lunar [] sortDesc id id seed) (default_runnable [] sortDesc id id seed).nodup
    (by norm_num [RunCfg.default]) (by norm_num [RunCfg.default]) (by norm_num [RunCfg.default])
    (by norm_num [RunCfg.default]) (shipped_plain _ _ _ _) (by
      have := file_names.1
      simp only [shippedData, List.map_append, List.map_map, Function.comp_def] at this ⊢
      exact this) out hout

end MoonPIES
