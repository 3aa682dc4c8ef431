import Verif.Props.IceLayer

/-!
# C181: what is older lies below
-/

namespace MoonPIES

open Spec

/-- The nearest times are ordered like the ages. -/
theorem nearest_mono {time : List ℝ} (hdec : time.Pairwise (· > ·)) {a a' t t' : ℝ} {i j : Nat} (hi : Nearest time a i)
    (hj : Nearest time a' j) (ht : time[i]? = some t) (ht' : time[j]? = some t') (h : a' ≤ a) : t' ≤ t := by
  by_contra hlt
  have hlt := not_le.1 hlt
  obtain ⟨u, u1, -, u3⟩ := hi
  obtain ⟨v, v1, v2, -⟩ := hj
  rw [ht] at u1
  injection u1 with u1
  subst u1
  rw [ht'] at v1
  injection v1 with v1
  subst v1
  have hji : j < i := by
    by_contra hge
    rcases (not_lt.1 hge).lt_or_eq with hij | hij
    · obtain ⟨x1, x2⟩ := List.getElem?_eq_some_iff.1 ht
      obtain ⟨y1, y2⟩ := List.getElem?_eq_some_iff.1 ht'
      have := List.pairwise_iff_getElem.1 hdec i j x1 y1 hij
      rw [x2, y2] at this
      exact absurd this (not_lt.2 hlt.le)
    · rw [hij, ht'] at ht
      injection ht with ht
      linarith
  have h1 := u3 j t' hji ht'
  have h2 := v2 i t ht
  rw [← sq_lt_sq] at h1
  rw [← sq_le_sq] at h2
  nlinarith

/-- **C181** of two layers below the mark of the formation age the one with the older time comes first, and the base of the
other lies no deeper than its top. Layers of one time are one layer. -/
theorem C181_table (thickMin tol age : ℝ) (saa : Bool) (steps : List (Step ℝ)) (out : List (StratRow ℝ))
    (hdec : (steps.map (·.time)).Pairwise (· > ·)) (hsrc : ∀ s ∈ steps, s.src ≠ "Formation age")
    (hpos : ∀ s ∈ steps, 0 ≤ s.ice ∧ 0 ≤ s.ejecta) (h : makeStratCol thickMin tol saa age steps = .ok out)
    (r r' : StratRow ℝ) (hr : r ∈ out) (hr' : r' ∈ out) (hl : r.label ≠ "Formation age") (hl' : r'.label ≠ "Formation age") :
    (r.time = r'.time → r = r') ∧
    (r'.time < r.time → (∃ a b c, out = a ++ r :: (b ++ r' :: c)) ∧ r'.depth ≤ r.depth - (r.ice + r.ejecta)) := by
  obtain ⟨top, layers, rfl, e2, e3⟩ := layer_times _ _ _ _ _ _ hdec hsrc h
  have hin : ∀ q ∈ top ++ layers, q.label ≠ "Formation age" → q ∈ layers := by
    intro q hq hql
    rcases List.mem_append.1 hq with hq | hq
    · exact absurd (e2 q hq) hql
    · exact hq
  have m := hin r hr hl
  have m' := hin r' hr' hl'
  obtain ⟨a, b, e⟩ := List.append_of_mem m
  have e3' := e3
  rw [e, List.map_append, List.map_cons, List.pairwise_append, List.pairwise_cons] at e3'
  obtain ⟨-, ⟨d2, -⟩, d3⟩ := e3'
  have before : ∀ q ∈ a, r.time < q.time := fun q hq => d3 _ (List.mem_map_of_mem hq) r.time (by simp)
  have after : ∀ q ∈ b, q.time < r.time := fun q hq => d2 _ (List.mem_map_of_mem hq)
  rw [e, List.mem_append, List.mem_cons] at m'
  constructor
  · intro ht
    rcases m' with m' | m' | m'
    · have := before r' m'
      linarith
    · exact m'.symm
    · have := after r' m'
      linarith
  · intro ht
    have hb : r' ∈ b := by
      rcases m' with m' | m' | m'
      · have := before r' m'
        linarith
      · rw [m'] at ht
        exact absurd ht (lt_irrefl _)
      · exact m'
    obtain ⟨b1, b2, rfl⟩ := List.append_of_mem hb
    have hout : top ++ layers = (top ++ a) ++ r :: (b1 ++ r' :: b2) := by rw [e]; simp
    refine ⟨⟨_, _, _, hout⟩, ?_⟩
    have hnn := strat_nonneg hpos h
    obtain ⟨key, -⟩ := C22_depth_cumulative thickMin tol age saa steps _ h
    have k1 := key (top ++ a).length r (by rw [hout]; simp)
    have k2 := key ((top ++ a).length + (1 + b1.length)) r' (by
      rw [hout, List.getElem?_append_right (by omega), show (top ++ a).length + (1 + b1.length) - (top ++ a).length =
        b1.length + 1 by omega, List.getElem?_cons_succ, List.getElem?_append_right (by omega), Nat.sub_self]
      rfl)
    have hd1 : (top ++ layers).drop (top ++ a).length = r :: (b1 ++ r' :: b2) := by
      rw [hout]; exact List.drop_left
    have hd2 : (top ++ layers).drop ((top ++ a).length + (1 + b1.length)) = r' :: b2 := by
      rw [← List.drop_drop, hd1, Nat.add_comm, List.drop_succ_cons]
      exact List.drop_left
    rw [hd1] at k1
    rw [hd2] at k2
    rw [List.map_cons, List.sum_cons, List.map_append, List.sum_append, ← k2] at k1
    have hb1 : 0 ≤ (b1.map (fun r => r.ice + r.ejecta)).sum := by
      apply List.sum_nonneg
      intro x hx
      obtain ⟨q, q1, rfl⟩ := List.mem_map.1 hx
      obtain ⟨n1, n2⟩ := hnn q (by rw [hout]; simp [q1])
      linarith
    linarith

variable {σ : Type}

/-- No timestep of a run with plain names has the name of the mark of the formation age. -/
theorem sources_not_formation {c : RunCfg} {time : List ℝ} {df : CraterTable} {th : List ℝ}
    (hpl : ∀ q ∈ df, PlainName q.rest.crater.cname) (i : Nat) :
    joinComma (Sources RunCfg.rtol c.thickness_min time df th i) ≠ "Formation age" := by
  intro e
  have hS : ∀ n ∈ Sources RunCfg.rtol c.thickness_min time df th i, PlainName n := by
    intro n hnm
    unfold Sources at hnm
    obtain ⟨p, p1, rfl⟩ := List.mem_map.1 hnm
    have p1' : (p.1, p.2) ∈ df.zip th := List.mem_of_mem_filter p1
    exact hpl p.1 (List.of_mem_zip p1').1
  by_cases h0 : Sources RunCfg.rtol c.thickness_min time df th i = []
  · rw [h0] at e
    exact absurd e (by decide)
  · have hone := join_one h0 (fun n hn => (hS n hn).2.1) (by decide) e
    exact (hS "Formation age" (by rw [hone]; simp)).2.2.2.2 rfl

/-- **C181** every run that returns, with plain and distinct names and a descending time array: if a table names two craters
or basins, the older of which is `q`, they are named in one layer, or the layer that names `q` comes first, its time is older
and its top lies no higher than the base of the layer that names the other. -/
theorem C181_run (g : Gen σ) (hg : LawfulGen g) (c : RunCfg) (d : RunData) (hc : PhysicalCfg c)
    (hd : PhysicalData c d) (hl : Lunar c d) (hnd : c.coldtrap_names.Nodup) (hmin : 0 ≤ c.thickness_min)
    (hdt : 0 < c.timestep) (hts : c.timestep < c.timestart) (hspan : c.timestep ≤ c.timestart - c.timeend)
    (hplain : ∀ r ∈ d.craters ++ d.basins, PlainName r.cname)
    (hnames : ((d.craters ++ d.basins).map (·.cname)).Nodup) (out : CsvOut) (hrun : runMain g c d = .ok out) :
    ∃ df s, craterBasinList g c d (g.init c.seed) = .ok (df, s) ∧
      ∀ name ∈ c.coldtrap_names, ∃ table, out.strat.get name = .ok table ∧
        ∀ q ∈ df, ∀ q' ∈ df, q'.age ≤ q.age → ∀ r ∈ table, ∀ r' ∈ table, Named q.rest.crater.cname r →
          Named q'.rest.crater.cname r' → r = r' ∨
            (r'.time < r.time ∧ (∃ a b e, table = a ++ r :: (b ++ r' :: e)) ∧
              r'.depth ≤ r.depth - (r.ice + r.ejecta)) := by
  obtain ⟨df, s, time, hdf, htime, hsteps⟩ := run_steps_nonneg g hg c d hc hd hl hnd out hrun
  obtain ⟨df', s', time', k1, k2, k3⟩ := C177_run g hg c d hc hd hl hnd hmin hdt hts hspan hplain hnames out hrun
  rw [hdf] at k1
  injection k1 with k1
  injection k1 with k1 _
  subst k1
  rw [htime] at k2
  injection k2 with k2
  subst k2
  obtain ⟨tl, hl1, -, -, hl2, -⟩ := C19_shape_partial c.timestart c.timeend c.timestep hdt hts hspan
  rw [htime] at hl1
  injection hl1 with hl1
  subst hl1
  have hpl : ∀ q ∈ df, PlainName q.rest.crater.cname := by
    intro q hq
    obtain ⟨r, r1, r2⟩ := df_names g c d hd.sorted df _ _ hdf q hq
    rw [← r2]; exact hplain r r1
  refine ⟨df, s, hdf, ?_⟩
  intro name hn
  obtain ⟨trap, tm, tn, steps, table, -, -, a3, a4, a5, a6, th, -, a9⟩ := hsteps name hn
  have a9 := a9 (fun r hr => plain_good (hplain r hr))
  obtain ⟨trap', -, -, table', b1, -, b3⟩ := k3 name hn
  rw [a3] at b1
  injection b1 with b1
  subst b1
  refine ⟨table, a3, ?_⟩
  intro q hq q' hq' hage r hr r' hr' hnm hnm'
  have hnot : ∀ q ∈ df, ∀ r : StratRow ℝ, Named q.rest.crater.cname r → r.label ≠ "Formation age" := by
    rintro q hq r ⟨ns, m1, m2, m3⟩ e
    have := join_one (List.ne_nil_of_mem m3) m1 (by decide) (m2.symm.trans e)
    rw [this, List.mem_singleton] at m3
    exact (hpl q hq).2.2.2.2 m3
  obtain ⟨x, -, -, w⟩ := b3 q hq
  obtain ⟨⟨i, i1, i2⟩, -⟩ := w r hr hnm
  obtain ⟨x', -, -, w'⟩ := b3 q' hq'
  obtain ⟨⟨j, j1, j2⟩, -⟩ := w' r' hr' hnm'
  have hle := nearest_mono hl2 i1 j1 i2 j2 hage
  obtain ⟨t1, t2⟩ := C181_table _ _ _ _ steps table (by rw [a4]; exact hl2) (by
    intro st hst
    obtain ⟨i, hi⟩ := List.mem_iff_getElem?.1 hst
    rw [a9 i st hi]
    exact sources_not_formation hpl i) a6 a5 r r' hr hr' (hnot q hq r hnm) (hnot q' hq' r' hnm')
  rcases hle.lt_or_eq with hlt | heq
  · exact Or.inr ⟨hlt, t2 hlt⟩
  · exact Or.inl (t1 heq.symm)

/-- C181 applies to every completed run of the default configuration. -/
example (seed : Int) (out : CsvOut)
    (hout : runMain constGen (RunCfg.default seed) (shippedData [] sortDesc id id) = .ok out) :=
  C181_run constGen constGen_lawful _ _ (default_physical seed) (default_data [] sortDesc id id sortDesc_spec seed)
    (default_lunar [] sortDesc id id seed) (default_runnable [] sortDesc id id seed).nodup
    (by norm_num [RunCfg.default]) (by norm_num [RunCfg.default]) (by norm_num [RunCfg.default])
    (by norm_num [RunCfg.default]) (shipped_plain _ _ _ _) (by
      have := file_names.1
      simp only [shippedData, List.map_append, List.map_map, Function.comp_def] at this ⊢
      exact this) out hout

/-- A table in which the layer of the older crater begins 6 m down, below the base of the layer of the younger one. -/
example : makeStratCol (1 / 10 : ℚ) 0 false 0 [⟨3, 1, 3, "A"⟩, ⟨2, 1, 0, ""⟩, ⟨1, 2, 3, "B"⟩] =
    .ok [⟨1, 3, "A", 3, 10, some 25⟩, ⟨1, 0, "Ice", 2, 6, some 100⟩, ⟨2, 3, "B", 1, 5, some 40⟩] := by
  decide +kernel

end MoonPIES
