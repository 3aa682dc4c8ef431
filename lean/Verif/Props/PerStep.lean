import Verif.Spec.PerStep
import Verif.Props.Buried
import Verif.Spec.CannonRun

/-!
# C150: gardening after Costello et al. is per timestep
-/

namespace MoonPIES

open Spec

section
variable {K : Type} [Field K] [LinearOrder K] [IsStrictOrderedRing K]

theorem sum_le_of_getElem? : ∀ (l m : List K), l.length = m.length →
    (∀ (i : Nat) x y, l[i]? = some x → m[i]? = some y → x ≤ y) → l.sum ≤ m.sum
  | [], [], _, _ => le_rfl
  | x :: l, y :: m, hl, h => by
    rw [List.sum_cons, List.sum_cons]
    exact add_le_add (h 0 x y rfl rfl) (sum_le_of_getElem? l m (by simpa using hl)
      (fun i a b ha hb => h (i + 1) a b ha hb))

omit [IsStrictOrderedRing K] in
theorem sink_length (depth eff : K) : ∀ (d : K) (l : List (K × K)), (sink depth eff d l).length = l.length
  | _, [] => rfl
  | d, (x, e) :: l => by
    rw [sink]
    split
    · rw [List.length_cons, sink_length depth eff _ l, List.length_cons]
    · rfl

omit [IsStrictOrderedRing K] in
theorem layDown_length : ∀ (vs : List (Event K)) (l : List (K × K)), (layDown l vs).length = l.length + vs.length
  | [], l => rfl
  | v :: vs, l => by
    rw [layDown, layDown_length vs, sink_length, List.length_cons, sink_length, List.length_cons]
    omega

theorem surplus_sum {vs : List (Event K)} {s : K} (h : ∀ v ∈ vs, 0 ≤ v.ice ∧ 0 ≤ v.ej ∧ v.ice ≤ s ∧ s ≤ v.overturn) :
    (vs.map surplus).sum ≤ s * (vs.countP (fun v => decide (0 < v.ej)) : Nat) := by
  induction vs with
  | nil => simp
  | cons v vs ih =>
    have ih := ih (fun w hw => h w (List.mem_cons_of_mem _ hw))
    obtain ⟨h1, h2, h3, h4⟩ := h v (by simp)
    rw [List.map_cons, List.sum_cons, List.countP_cons]
    unfold surplus
    by_cases he : 0 < v.ej
    · rw [if_pos (by simpa using he)]
      push_cast
      have : 0 ≤ min v.ice (max 0 (v.overturn - v.ej)) := le_min h1 (le_max_left _ _)
      rw [mul_add, mul_one]
      unfold surplus at ih
      linarith
    · rw [if_neg (by simpa using he)]
      have he0 : v.ej = 0 := le_antisymm (not_lt.1 he) h2
      rw [he0, sub_zero, min_eq_left (le_max_of_le_right (h3.trans h4)), sub_self, zero_add, Nat.add_zero]
      exact ih

/-- **C150** all ice of a pile is what each delivery had above the gardening of its own timestep, or less. -/
theorem C150_total (vs : List (Event K)) (h : ∀ v ∈ vs, 0 ≤ v.ice ∧ 0 ≤ v.bsedFrac ∧ v.bsedFrac ≤ 1)
    (he : ∀ v ∈ vs, 0 ≤ v.ej) : ((layDown [] vs).map (·.1)).sum ≤ (vs.map surplus).sum := by
  rw [← List.sum_reverse]
  have hl := (layDown_nonneg vs [] h (by intro p hp; cases hp)).1
  apply sum_le_of_getElem?
  · rw [List.length_reverse, List.length_map, List.length_map, hl]
    simp
  · intro i x y hx hy
    rw [List.getElem?_map] at hy
    cases hv : vs[i]? with
    | none => rw [hv] at hy; cases hy
    | some v =>
      rw [hv] at hy
      injection hy with hy
      obtain ⟨hi, hvi⟩ := List.getElem?_eq_some_iff.1 hv
      have hsplit : vs = vs.take i ++ v :: vs.drop (i + 1) := by
        rw [← hvi, List.cons_getElem_drop_succ, List.take_append_drop]
      obtain ⟨z, z1, -, z3, -⟩ := C147_layer (vs.take i) (vs.drop (i + 1)) v (by rw [← hsplit]; exact h)
        (he v (List.mem_of_getElem? hv))
      rw [← hsplit, List.length_take, min_eq_left hi.le, hx] at z1
      injection z1 with z1
      rw [z1, ← hy]
      exact z3

/-- **C150** with deliveries no thicker than gardening is deep, only timesteps with ejecta keep ice, each no more than
one delivery. -/
theorem C150_thin (vs : List (Event K)) (s : K) (h : ∀ v ∈ vs, 0 ≤ v.bsedFrac ∧ v.bsedFrac ≤ 1)
    (hs : ∀ v ∈ vs, 0 ≤ v.ice ∧ 0 ≤ v.ej ∧ v.ice ≤ s ∧ s ≤ v.overturn) :
    ((layDown [] vs).map (·.1)).sum ≤ s * (vs.countP (fun v => decide (0 < v.ej)) : Nat) :=
  (C150_total vs (fun v hv => ⟨(hs v hv).1, h v hv⟩) (fun v hv => (hs v hv).2.1)).trans (surplus_sum hs)

/-- **C150** so whatever is supplied, at a rate of at most `s` metres a year and with ejecta in at most `k` timesteps,
all ice is lost in the limit of short timesteps: gardening works to `depth` in every timestep, however short. -/
theorem C150_vanishes {s depth : K} (hs : 0 ≤ s) (hd : 0 < depth) (k : Nat) {ε : K} (hε : 0 < ε) :
    ∃ δ, 0 < δ ∧ ∀ dt, 0 < dt → dt ≤ δ → ∀ vs : List (Event K),
      (∀ v ∈ vs, 0 ≤ v.ice ∧ v.ice ≤ s * dt ∧ 0 ≤ v.ej ∧ depth ≤ v.overturn ∧ 0 ≤ v.bsedFrac ∧ v.bsedFrac ≤ 1) →
      vs.countP (fun v => decide (0 < v.ej)) ≤ k → ((layDown [] vs).map (·.1)).sum ≤ ε := by
  have hs1 : 0 < s + 1 := by linarith
  have hk1 : (0 : K) < k + 1 := by positivity
  refine ⟨min (depth / (s + 1)) (ε / ((s + 1) * (k + 1))), lt_min (div_pos hd hs1) (div_pos hε (mul_pos hs1 hk1)), ?_⟩
  intro dt hdt hle vs hv hc
  have h1 : (s + 1) * dt ≤ depth := by
    have := hle.trans (min_le_left _ _)
    rwa [le_div_iff₀ hs1, mul_comm] at this
  have h2 : dt * ((s + 1) * (k + 1)) ≤ ε := by
    have := hle.trans (min_le_right _ _)
    rwa [le_div_iff₀ (mul_pos hs1 hk1)] at this
  have h3 : s * dt ≤ depth := by nlinarith
  refine (C150_thin vs (s * dt) (fun v h => (hv v h).2.2.2.2) (fun v h => ?_)).trans ?_
  · obtain ⟨a1, a2, a3, a4, -⟩ := hv v h
    exact ⟨a1, a3, a2, h3.trans a4⟩
  · have hck : ((vs.countP (fun v => decide (0 < v.ej)) : Nat) : K) ≤ k := by exact_mod_cast hc
    have h4 : 0 ≤ s * dt := mul_nonneg hs hdt.le
    have h5 : (0 : K) ≤ k := Nat.cast_nonneg k
    calc s * dt * ((vs.countP (fun v => decide (0 < v.ej)) : Nat) : K) ≤ s * dt * k :=
          mul_le_mul_of_nonneg_left hck h4
      _ ≤ dt * ((s + 1) * (k + 1)) := by nlinarith [mul_nonneg hdt.le h5, mul_nonneg h4 h5]
      _ ≤ ε := h2

/-- **C150** erosion as in Cannon et al. scales with the timestep: of a steady supply, `s` metres a year less `r` eroded,
the same is left whatever the timestep. -/
theorem C150_cannon {shield s r dt : K} (hsh : 0 ≤ shield) (hdt : 0 < dt) (n : Nat) :
    pileSum shield (r * dt) 0 (List.replicate n (s * dt, 0)) = n * dt * max 0 (s - r) := by
  have key : ∀ (n : Nat) (m : Nat), pileSum shield (r * dt) (m * dt * max 0 (s - r)) (List.replicate n (s * dt, 0)) =
      ((m + n : Nat) : K) * dt * max 0 (s - r) := by
    intro n
    induction n with
    | zero => intro m; rw [List.replicate_zero, pileSum, Nat.add_zero]
    | succ n ih =>
      intro m
      rw [List.replicate_succ, pileSum, if_pos hsh]
      have e : max 0 (m * dt * max 0 (s - r) + s * dt - r * dt) = ((m + 1 : Nat) : K) * dt * max 0 (s - r) := by
        rcases le_total 0 (s - r) with h | h
        · rw [max_eq_right h, max_eq_right]
          · push_cast; ring
          · have : 0 ≤ (m : K) * dt * (s - r) := mul_nonneg (mul_nonneg (Nat.cast_nonneg m) hdt.le) h
            nlinarith
        · rw [max_eq_left h, mul_zero, mul_zero, zero_add, max_eq_left]
          nlinarith
      rw [e, ih (m + 1), show m + 1 + n = m + (n + 1) by omega]
  have := key n 0
  simpa using this

end

variable {σ : Type}

/-- **C150** whole runs: the ice of a cold trap is at most the sum of what each timestep delivers above the reach of its
own gardening. -/
theorem C150_run (g : Gen σ) (hg : LawfulGen g) (c : RunCfg) (d : RunData) (hc : PhysicalCfg c)
    (hd : PhysicalData c d) (hl : Lunar c d) (hnd : c.coldtrap_names.Nodup)
    (hcost : c.impact_gardening_costello = true) (out : CsvOut) (hrun : runMain g c d = .ok out) :
    ∃ df s time delivered s', craterBasinList g c d (g.init c.seed) = .ok (df, s) ∧
      getTimeArray c.timestart c.timeend c.timestep = .ok time ∧
      iceCols g c d df time s = .ok (delivered, s') ∧
      ∀ (j : Nat) name, c.coldtrap_names[j]? = some name → ∃ (ice ej : List ℝ) (vs : List (Event ℝ)),
        out.ice.get name = .ok ice ∧ out.ej.get name = .ok ej ∧ vs.map (·.ej) = ej ∧
        vs.map (·.overturn) = overturnDepth c.overturn time ∧ vs.length = time.length ∧
        (∀ (t : Nat) v, vs[t]? = some v → (delivered[t]?).bind (·[j]?) = some v.ice ∧ 0 ≤ v.ice ∧ 0 ≤ v.ej) ∧
        ice.sum ≤ (vs.map surplus).sum := by
  obtain ⟨df, s, time, delivered, s', dists, thick, bd, bf, h1, h2, h3, h4, h5, h6, h7⟩ :=
    C147_run g hg c d hc hd hnd hcost out hrun
  refine ⟨df, s, time, delivered, s', h1, h2, h3, ?_⟩
  intro j name hj
  obtain ⟨ice, ej, vs, k1, k2, k3, k4, k5, k6, k7⟩ := h7 j name hj
  obtain ⟨ice', ej', table, q1, q2, q3, q4, q5, -⟩ := C85_run_tables_partial g hg c d hc hd hl hnd out hrun name
    (List.mem_of_getElem? hj)
  rw [k2] at q2
  injection q2 with q2
  subst q2
  rw [k1] at q1
  injection q1 with q1
  subst q1
  have hej : ∀ v ∈ vs, 0 ≤ v.ej := fun v hv => q5 _ (by rw [← k4]; exact List.mem_map_of_mem hv)
  have hlay : ∀ (i : Nat) v, vs[i]? = some v → ∃ x, ice[i]? = some x ∧ 0 ≤ x ∧ x ≤ surplus v := by
    intro i v hv
    obtain ⟨hi, hvi⟩ := List.getElem?_eq_some_iff.1 hv
    have hsplit : vs = vs.take i ++ v :: vs.drop (i + 1) := by
      rw [← hvi, List.cons_getElem_drop_succ, List.take_append_drop]
    obtain ⟨x, x1, x2, x3, -⟩ := k7 _ _ _ hsplit (hej v (List.mem_of_getElem? hv))
    rw [List.length_take, min_eq_left hi.le] at x1
    exact ⟨x, x1, x2, x3⟩
  refine ⟨ice, ej, vs, k1, k2, k4, k5, k3, ?_, ?_⟩
  · intro t v hv
    refine ⟨(k6 t v hv).1, ?_, hej v (List.mem_of_getElem? hv)⟩
    obtain ⟨x, -, x2, x3⟩ := hlay t v hv
    have h0 : 0 ≤ surplus v := x2.trans x3
    by_contra hneg
    push Not at hneg
    unfold surplus at h0
    rw [min_eq_left (hneg.le.trans (le_max_left _ _)), sub_self] at h0
    obtain ⟨rows, s3, i1, i2, i3⟩ := iceCols_ok g hg hc hd df (craterBasinList_rad g hd _ _ _ h1) time
      (by rintro rfl; rw [List.length_nil, List.length_eq_zero_iff] at k3; subst k3; simp at hv) s
    rw [h3] at i1
    injection i1 with i1
    injection i1 with i1 _
    subst i1
    have m1 := (k6 t v hv).1
    cases hr : delivered[t]? with
    | none => rw [hr] at m1; cases m1
    | some row =>
      rw [hr, Option.bind_some] at m1
      exact absurd ((i3 row (List.mem_of_getElem? hr)).2 _ (List.mem_of_getElem? m1)) (not_le.2 hneg)
  · apply sum_le_of_getElem?
    · obtain ⟨_, _, time', _, _, _, _, _, _, _, t2, _, _, _, _, t7⟩ := C142_run g hg c d hc hd hnd hcost out hrun
      obtain ⟨ice2, _, vs2, r1, _, r3, _, _, _, r7⟩ := t7 j name hj
      rw [h2] at t2
      injection t2 with t2
      rw [k1] at r1
      injection r1 with r1
      rw [List.length_map, k3, t2, ← r3, r1, r7, List.length_reverse, List.length_map, layDown_length]
      exact Nat.zero_add _
    · intro i x y hx hy
      rw [List.getElem?_map] at hy
      cases hv : vs[i]? with
      | none => rw [hv] at hy; cases hy
      | some v =>
        rw [hv] at hy
        injection hy with hy
        obtain ⟨z, z1, -, z3⟩ := hlay i v hv
        rw [hx] at z1
        injection z1 with z1
        rw [z1, ← hy]
        exact z3

/-- **C150** in a run whose deliveries to a cold trap are no thicker than present-day gardening is deep, the trap keeps
at most one such delivery per timestep with ejecta. -/
theorem C150_run_thin (g : Gen σ) (hg : LawfulGen g) (c : RunCfg) (d : RunData) (hc : PhysicalCfg c)
    (hd : PhysicalData c d) (hl : Lunar c d) (hnd : c.coldtrap_names.Nodup)
    (hcost : c.impact_gardening_costello = true) (hslope : 0 ≤ c.overturn_ancient_slope)
    (hpres : 0 ≤ c.overturn_depth_present) (out : CsvOut) (hrun : runMain g c d = .ok out) :
    ∃ df s time delivered s', craterBasinList g c d (g.init c.seed) = .ok (df, s) ∧
      getTimeArray c.timestart c.timeend c.timestep = .ok time ∧
      iceCols g c d df time s = .ok (delivered, s') ∧
      ∀ (j : Nat) name, c.coldtrap_names[j]? = some name → ∃ (ice ej : List ℝ),
        out.ice.get name = .ok ice ∧ out.ej.get name = .ok ej ∧
        ∀ thick, thick ≤ c.overturn_depth_present → (∀ row ∈ delivered, ∀ x, row[j]? = some x → x ≤ thick) →
          ice.sum ≤ thick * (ej.countP (fun e => decide (0 < e)) : Nat) := by
  obtain ⟨df, s, time, delivered, s', h1, h2, h3, h4⟩ := C150_run g hg c d hc hd hl hnd hcost out hrun
  refine ⟨df, s, time, delivered, s', h1, h2, h3, ?_⟩
  intro j name hj
  obtain ⟨ice, ej, vs, k1, k2, k3, k4, k5, k6, k7⟩ := h4 j name hj
  refine ⟨ice, ej, k1, k2, ?_⟩
  intro thick hthick hrows
  rw [← k3, List.countP_map]
  refine k7.trans (surplus_sum ?_)
  intro v hv
  obtain ⟨t, ht⟩ := List.mem_iff_getElem?.1 hv
  obtain ⟨m1, m2, m3⟩ := k6 t v ht
  refine ⟨m2, m3, ?_, ?_⟩
  · cases hr : delivered[t]? with
    | none => rw [hr] at m1; cases m1
    | some row =>
      rw [hr, Option.bind_some] at m1
      exact hrows row (List.mem_of_getElem? hr) _ m1
  · have hmem : v.overturn ∈ overturnDepth c.overturn time := by
      rw [← k4]
      exact List.mem_map_of_mem hv
    unfold overturnDepth at hmem
    rw [if_pos (by exact hcost)] at hmem
    obtain ⟨u, -, hu⟩ := List.mem_map.1 hmem
    rw [← hu]
    exact hthick.trans ((C48_costello c.overturn hslope hpres).2.1 u)

/-- **C150** the depths of gardening add up to at least the present depth per timestep after Costello et al., more the
shorter the timestep; to the same, whatever the timestep, as in Cannon et al. -/
theorem C150_depths (o : OverturnCfg ℝ) (hslope : 0 ≤ o.overturn_ancient_slope) (hpres : 0 ≤ o.overturn_depth_present)
    {dt T : ℝ} (hdt : 0 < dt) (n : Nat) (hn : 0 < n) (hT : T = n * dt) {time : List ℝ}
    (ht : getTimeArray T 0 dt = .ok time) :
    (o.impact_gardening_costello = true → T / dt * o.overturn_depth_present ≤
      (overturnDepth { o with timestep := dt } time).sum) ∧
    (o.impact_gardening_costello = false → (overturnDepth { o with timestep := dt } time).sum =
      o.ice_erosion_rate * T / 10000000) := by
  have hlen : time.length = n := by
    rw [C19_uniform_partial T dt n hn hdt hT] at ht
    injection ht with ht
    rw [← ht]
    simp [uniformGrid]
  have hTn : T / dt = n := by rw [hT]; field_simp
  constructor
  · intro hcost
    unfold overturnDepth
    rw [if_pos (by exact hcost), hTn, ← hlen]
    have key : ∀ l : List ℝ, (l.length : ℝ) * o.overturn_depth_present ≤
        (l.map (overturnCostello { o with timestep := dt })).sum := by
      intro l
      induction l with
      | nil => simp
      | cons t l ih =>
        rw [List.length_cons, List.map_cons, List.sum_cons]
        have : o.overturn_depth_present ≤ overturnCostello { o with timestep := dt } t :=
          (C48_costello { o with timestep := dt } hslope hpres).2.1 t
        push_cast
        linarith
    exact key time
  · intro hcost
    unfold overturnDepth
    rw [if_neg (by simp [hcost])]
    simp only [List.map_const', List.sum_replicate, hlen, nsmul_eq_mul]
    rw [hT]
    ring

/-! ## Examples -/

/-- 2 mm a year over 200 years with gardening to 0.1 m: in steps of 100, 50 and 200 years. -/
example : ((layDown [] (List.replicate 2 ⟨2 / 10, 0, 1 / 10, 0, 0⟩ : List (Event ℚ))).map (·.1)).sum = 2 / 10 ∧
    ((layDown [] (List.replicate 4 ⟨1 / 10, 0, 1 / 10, 0, 0⟩ : List (Event ℚ))).map (·.1)).sum = 0 ∧
    ((layDown [] (List.replicate 1 ⟨4 / 10, 0, 1 / 10, 0, 0⟩ : List (Event ℚ))).map (·.1)).sum = 3 / 10 := by
  decide +kernel

/-- The default run, whatever the seed and generator: the bound holds for all its cold traps. -/
example (g : Gen σ) (hg : LawfulGen g) (seed : Int) : ∃ out df s time delivered s',
    runMain g (RunCfg.default seed) (shippedData [] sortDesc id id) = .ok out ∧
    iceCols g (RunCfg.default seed) (shippedData [] sortDesc id id) df time s = .ok (delivered, s') ∧
    ∀ (j : Nat) name, (RunCfg.default seed).coldtrap_names[j]? = some name → ∃ (ice ej : List ℝ),
      out.ice.get name = .ok ice ∧ out.ej.get name = .ok ej ∧
      ∀ thick, thick ≤ 0.09 → (∀ row ∈ delivered, ∀ x, row[j]? = some x → x ≤ thick) →
        ice.sum ≤ thick * (ej.countP (fun e => decide (0 < e)) : Nat) := by
  have hp := default_physical seed
  have hd := default_data [] sortDesc id id sortDesc_spec seed
  have hr := default_runnable [] sortDesc id id seed
  obtain ⟨out, hrun⟩ := C72_returns g hg _ _ hp hd hr
  obtain ⟨df, s, time, delivered, s', h1, h2, h3, h4⟩ := C150_run_thin g hg _ _ hp hd
    (default_lunar [] sortDesc id id seed) hr.nodup rfl
    (by simp only [RunCfg.default]; norm_num) (by simp only [RunCfg.default]; norm_num) out hrun
  exact ⟨out, df, s, time, delivered, s', hrun, h3, h4⟩

end MoonPIES
