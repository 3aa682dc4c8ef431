import Verif.Lemmas.TwoTraps

/-!
# C129: with sedimentation the other cold traps matter
-/

namespace MoonPIES

open Spec Real

theorem toy_update (sh I x1 x2 w D f : ℝ) (src : List String) (hD : 0 < D) (hf : I * f ≤ D) :
    updateStratCols id sh true ["A"] [("A", ⟨[I, x1, x2], [0, w, 0], src⟩)] [0, 0, 0]
      [[0], [D], [0]] [[0], [f], [0]] =
        .ok [("A", ⟨[I - I * f, x1, x2], [0, w, 0], src⟩)] := by
  have g0 : ∀ (n : Nat) (ice : List ℝ) (e : ℝ), gardenLoop id [0, w, 0] 0 e n 0 ice = .ok ice := by
    intro n ice e
    cases n with
    | zero => rfl
    | succ n => unfold gardenLoop; rw [if_neg (lt_irrefl _)]
  have g1 : gardenLoop id [0, w, 0] D f 2 0 [I, x1, x2] = .ok [I - I * f, x1, x2] := by
    simp only [gardenLoop, id]
    norm_num [hD, not_lt.2 hf]
  have u0 : updateIceCol id sh true [I, x1, x2] [0, w, 0] 0 0 0 0 = .ok [I, x1, x2] := by
    simp [updateIceCol, gardenIceColumn, removeIceOverturn, g0, bind, Except.bind]
  have u1 : updateIceCol id sh true [I, x1, x2] [0, w, 0] 1 0 D f = .ok [I - I * f, x1, x2] := by
    simp [updateIceCol, gardenIceColumn, removeIceOverturn, g0, g1, bind, Except.bind]
  have u2 : updateIceCol id sh true [I - I * f, x1, x2] [0, w, 0] 2 0 0 0 = .ok [I - I * f, x1, x2] := by
    simp [updateIceCol, gardenIceColumn, removeIceOverturn, g0, bind, Except.bind]
  simp [updateStratCols, updateStratColsFrom, updateTraps, PyDict.get, PyDict.set, pyGet2, pyGet, u0, u1, u2,
    bind, Except.bind]

/-- The ice of cold trap `A` in the first layer of the two runs. -/
theorem toy_run (ns : List String) (hns : ns = ["A"] ∨ ns = ["A", "B"]) (out : CsvOut)
    (h : runMain constGen (toyTraps ns) toyData = .ok out) : ∃ rest, out.ice.get "A" =
      .ok ((toyIce - toyIce * (if ns = ["A"] then 1 / 2 else 2 / 3)) :: rest) := by
  -- the run of `A` alone
  have hcA : PhysicalCfg (toyTraps ["A"]) := toy_physical _
  obtain ⟨stA, hA, -⟩ := setup_ok constGen constGen_lawful hcA (toy_data ["A"])
    (toy_runnable ["A"] (by simp) (by simp) (by simp))
  obtain ⟨colA, x1, x2, w, a1, a2, a3⟩ := toy_col stA hA
  obtain ⟨s1, s2, dists, thick, h1, h2, h3, h4, h5, h6, h7⟩ := setup_inv _ _ _ stA hA
  have e1 := h1.symm.trans (toy_time ["A"])
  injection e1 with e1
  have e2 := h2.symm.trans (toy_df ["A"])
  injection e2 with e2
  injection e2 with e2 _
  rw [e2] at h3
  have e3 := h3.symm.trans toy_dists_A
  injection e3 with e3
  rw [e2, e3] at h4
  have e4 := h4.symm.trans toy_thickness_A
  injection e4 with e4
  rw [e1, e2, e3, e4] at h6
  have e6 := h6.symm.trans toy_bsed_A
  injection e6 with e6
  injection e6 with e6 e7
  have hov : stA.overturn = [0, 0, 0] := by
    rw [h7, e1]
    have hz : ∀ t : ℝ, overturnCostello (toyTraps ["A"]).overturn t = 0 := by
      intro t
      unfold overturnCostello
      simp only [show (toyTraps ["A"]).overturn.overturn_depth_present = 0 from rfl, mul_zero, zero_mul, ite_self]
    unfold overturnDepth
    refine (if_pos rfl).trans ?_
    simp only [List.map_cons, List.map_nil, hz]
  have hlow := toy_thick_lower
  have hice : 0 < toyIce ∧ toyIce < 2 := by unfold toyIce; norm_num
  -- either run
  unfold runMain at h
  obtain ⟨st, k1, h⟩ := bind_ok_inv h
  obtain ⟨cols, k2, h⟩ := bind_ok_inv h
  have hnd : ns.Nodup := by rcases hns with rfl | rfl <;> simp
  have hj : ns[0]? = some "A" := by rcases hns with rfl | rfl <;> rfl
  obtain ⟨-, -, b3, b4⟩ := C129_setup constGen (toyTraps ["A"]) toyData ns (by simp [toyTraps]) hnd stA st hA k1
  obtain ⟨⟨col, c1, c2⟩, c3, -⟩ := b4 0 0 "A" rfl hj
  rw [a1] at c1
  injection c1 with c1
  subst c1
  obtain ⟨col', d1, d2⟩ := C11_trap_alone _ _ _ _ hnd _ _ _ _ _ (liftPy_ok k2) 0 "A" hj _ c2
  have hfrac : colOf 0 st.bsedFrac = [[0], [if ns = ["A"] then 1 / 2 else 2 / 3], [0]] := by
    rcases hns with rfl | rfl
    · have : stA = st := by
        have := hA.symm.trans k1
        injection this
      rw [← this, e7]
      simp [colOf]
    · obtain ⟨s1', s2', dists', thick', h1', h2', h3', h4', h5', h6', h7'⟩ := setup_inv _ _ _ st k1
      have f1 := h1'.symm.trans (toy_time ["A", "B"])
      injection f1 with f1
      have f2 := h2'.symm.trans (toy_df ["A", "B"])
      injection f2 with f2
      injection f2 with f2 _
      rw [f2] at h3'
      have f3 := h3'.symm.trans toy_dists_AB
      injection f3 with f3
      rw [f2, f3] at h4'
      have f4 := h4'.symm.trans toy_thickness_AB
      injection f4 with f4
      rw [f1, f2, f3, f4] at h6'
      obtain ⟨bd, bf, g1, g2⟩ := toy_bsed_AB
      have f6 := h6'.symm.trans g1
      injection f6 with f6
      injection f6 with f6 f7
      rw [f7, g2]
      simp
  have hf : (0 : ℝ) < (if ns = ["A"] then 1 / 2 else 2 / 3) ∧
      (if ns = ["A"] then 1 / 2 else 2 / 3 : ℝ) ≤ 1 := by split <;> norm_num
  obtain ⟨f, hff⟩ : ∃ f : ℝ, f = if ns = ["A"] then 1 / 2 else 2 / 3 := ⟨_, rfl⟩
  rw [← hff] at hfrac hf ⊢
  have hd : colOf 0 stA.bsedDepth = [[0], [toyThick 1 * 1], [0]] := by rw [e6]; rfl
  have hcol : colA = ⟨[toyIce, x1, x2], [0, w, 0], colA.src⟩ := by
    rw [← a2, ← a3]
  rw [c3, hd, hfrac, b3, hov, hcol] at d2
  have hupd := d2.symm.trans (toy_update ejShield toyIce x1 x2 w (toyThick 1 * 1) f colA.src (by linarith)
    (by nlinarith [hice.1, hice.2, hf.1, hf.2]))
  injection hupd with hupd
  injection hupd with hupd _
  injection hupd with _ hupd
  obtain ⟨-, r, -, -, q, table, t1, -, t3, -⟩ := And.imp_right (fun f => f "A" (List.mem_of_getElem? hj))
    (formatCsv_inv _ _ _ _ _ _ (liftPy_ok h))
  rw [d1] at t1
  injection t1 with t1
  rw [← t1, hupd] at t3
  exact ⟨_, t3⟩

/-- **C129** is false of runs with ballistic sedimentation: adding a cold trap to the configuration
changes the ice of another one.  The melt fraction is interpolated by position among all the mixing
ratios queried, so a ratio queried for the second cold trap moves the value read for the first. -/
theorem C129_refuted : ¬ ∀ (σ : Type) (g : Gen σ) (c : RunCfg) (d : RunData) (ns : List String),
    LawfulGen g → PhysicalCfg c → PhysicalData c d → Runnable c d → Runnable (withTraps c ns) d →
    ∀ out out', runMain g c d = .ok out → runMain g (withTraps c ns) d = .ok out' →
      ∀ name ∈ c.coldtrap_names, name ∈ ns → out.ice.get name = out'.ice.get name := by
  intro hall
  have hr := toy_runnable ["A"] (by simp) (by simp) (by simp)
  have hr' := toy_runnable ["A", "B"] (by simp) (by simp) (by simp)
  obtain ⟨out, ho⟩ := C72_returns constGen constGen_lawful _ _ (toy_physical ["A"]) (toy_data ["A"]) hr
  obtain ⟨out', ho'⟩ := C72_returns constGen constGen_lawful _ _ (toy_physical ["A", "B"])
    (toy_data ["A", "B"]) hr'
  have h := hall Unit constGen (toyTraps ["A"]) toyData ["A", "B"] constGen_lawful (toy_physical ["A"])
    (toy_data ["A"]) hr hr' out out' ho ho' "A" (by simp [toyTraps]) (by simp)
  obtain ⟨r, hA⟩ := toy_run ["A"] (Or.inl rfl) out ho
  obtain ⟨r', hB⟩ := toy_run ["A", "B"] (Or.inr rfl) out' ho'
  rw [hA, hB] at h
  injection h with h
  injection h with h _
  rw [if_pos rfl, if_neg (by simp)] at h
  have hice : 0 < toyIce := by unfold toyIce; norm_num
  linarith

/-- C129 for the shipped files without sedimentation: Haworth comes out the same in the run of all
twelve cold traps and in the run of Cabeus and Haworth. -/
example (seed : Int) (c : RunCfg) (hc : c = { RunCfg.default seed with ballistic_sed := false }) :
    ∃ out out', runMain constGen c (shippedData [] sortDesc id id) = .ok out ∧
      runMain constGen (withTraps c ["Cabeus", "Haworth"]) (shippedData [] sortDesc id id) = .ok out' ∧
      ∃ ice ej table, out.ice.get "Haworth" = .ok ice ∧ out'.ice.get "Haworth" = .ok ice ∧
        out.ej.get "Haworth" = .ok ej ∧ out'.ej.get "Haworth" = .ok ej ∧
        out.strat.get "Haworth" = .ok table ∧ out'.strat.get "Haworth" = .ok table := by
  have h1 := default_physical seed
  have h2 := default_data [] sortDesc id id sortDesc_spec seed
  have h3 := default_runnable [] sortDesc id id seed
  have hsub : ∀ n ∈ ["Cabeus", "Haworth"], n ∈ (RunCfg.default seed).coldtrap_names := by
    intro n hn
    simp only [List.mem_cons, List.not_mem_nil, or_false] at hn
    rcases hn with rfl | rfl <;> simp [RunCfg.default]
  have p1 : PhysicalCfg c := by subst hc; exact { h1 with }
  have p2 : PhysicalData c (shippedData [] sortDesc id id) := by subst hc; exact { h2 with }
  have p3 : Runnable c (shippedData [] sortDesc id id) := by
    subst hc; exact { h3 with covers := fun h => by cases h }
  have q1 : PhysicalCfg (withTraps c ["Cabeus", "Haworth"]) := { p1 with }
  have q2 : PhysicalData (withTraps c ["Cabeus", "Haworth"]) (shippedData [] sortDesc id id) :=
    { p2 with hops := fun h n hn => p2.hops h n (by subst hc; exact hsub n hn) }
  have q3 : Runnable (withTraps c ["Cabeus", "Haworth"]) (shippedData [] sortDesc id id) :=
    { p3 with
      names := by simp [withTraps]
      nodup := by simp [withTraps]
      once := fun n hn => p3.once n (by subst hc; exact hsub n hn)
      old := fun r hr hn => p3.old r hr (by subst hc; exact hsub _ hn)
      peak := fun r hr hp => ⟨(p3.peak r hr hp).1, fun t ht hn => (p3.peak r hr hp).2 t ht
        (by subst hc; exact hsub _ hn)⟩ }
  obtain ⟨out, ho⟩ := C72_returns constGen constGen_lawful _ _ p1 p2 p3
  obtain ⟨out', ho'⟩ := C72_returns constGen constGen_lawful _ _ q1 q2 q3
  exact ⟨out, out', ho, ho', C129_run_partial _ _ _ _ sortDesc_spec p3.nodup (by simp)
    (by subst hc; rfl) _ _ ho ho' "Haworth" (by subst hc; simp [RunCfg.default]) (by simp)
    (p3.once _ (by subst hc; simp [RunCfg.default])).le⟩

end MoonPIES
