import Verif.Lemmas.Buried
import Verif.Props.LayDown
import Verif.Props.MainPhysical
import Verif.Props.TimeArray
import Verif.Props.Solar

/-!
# C147: how much ice a layer keeps
-/

namespace MoonPIES

open Spec

section
variable {K : Type} [Field K] [LinearOrder K] [IsStrictOrderedRing K]

/-- **C147** what is left of a layer of ice: at most what the gardening of its own timestep leaves, and at least that
less what later events reach below the ejecta on top of it. -/
theorem C147_layer (past later : List (Event K)) (v : Event K)
    (h : ∀ w ∈ past ++ v :: later, 0 ≤ w.ice ∧ 0 ≤ w.bsedFrac ∧ w.bsedFrac ≤ 1) (he : 0 ≤ v.ej) :
    ∃ x, ((layDown [] (past ++ v :: later)).map (·.1)).reverse[past.length]? = some x ∧ 0 ≤ x ∧
      x ≤ v.ice - min v.ice (max 0 (v.overturn - v.ej)) ∧
      v.ice - max 0 (v.overturn - v.ej) - exposure v.ej later ≤ x := by
  have hp : ∀ w ∈ past, 0 ≤ w.ice ∧ 0 ≤ w.bsedFrac ∧ w.bsedFrac ≤ 1 := fun w hw => h w (List.mem_append_left _ hw)
  obtain ⟨hi, hf0, hf1⟩ := h v (by simp)
  obtain ⟨p1, p2⟩ := layDown_nonneg past [] hp (by intro p hp; cases hp)
  obtain ⟨q, hq1, hq2⟩ : ∃ q : List (K × K), q = sink v.bsedDepth v.bsedFrac 0 (layDown [] past) ∧
      q.length = past.length ∧ ∀ p ∈ q, 0 ≤ p.1 := by
    refine ⟨_, rfl, ?_⟩
    obtain ⟨k1, k2⟩ := layDown_nonneg [⟨0, 0, 0, v.bsedDepth, v.bsedFrac⟩] (layDown [] past)
      (by intro w hw; obtain rfl := List.mem_singleton.1 hw; exact ⟨le_rfl, hf0, hf1⟩) p2
    rw [layDown, layDown, sink_no_depth le_rfl] at k1 k2
    rw [List.length_cons, p1] at k1
    exact ⟨by simpa using k1, fun p hp => k2 p (List.mem_cons_of_mem _ hp)⟩
  -- the event of the layer
  obtain ⟨a1, x1, b1, e1, e2, e3, -, e5, e6, e7, e8⟩ := sink_layer (depth := v.overturn) (eff := (1 : K)) zero_le_one le_rfl
    [] 0 v.ice v.ej q (by intro p hp; cases hp) hi hq2.2
  have ha1 : a1 = [] := by simpa using e2
  subst ha1
  have hb1 : b1.length = past.length := by
    have := congrArg List.length e3
    simp only [List.length_map] at this
    rw [this, hq2.1]
  simp only [List.map_nil, List.sum_nil, add_zero, zero_add, List.nil_append] at e1 e8
  have hown : x1 ≤ v.ice - min v.ice (max 0 (v.overturn - v.ej)) := by
    rw [sink, zero_add, mul_one] at e1
    by_cases hd : 0 < v.overturn ∧ v.ej < v.overturn
    · rw [if_pos hd] at e1
      injection e1 with e1 _
      injection e1 with e1 _
      rw [← e1, max_eq_right (by linarith [hd.2])]
    · rw [if_neg hd] at e1
      injection e1 with e1 _
      injection e1 with e1 _
      have : max 0 (v.overturn - v.ej) = 0 := by
        refine max_eq_left ?_
        by_contra hlt
        push Not at hlt
        exact hd ⟨by linarith, by linarith⟩
      rw [← e1, this, min_eq_right hi, sub_zero]
  -- later events
  obtain ⟨a2, x2, b2, g1, g2, g3, g4, g5⟩ := layDown_layer later [] x1 v.ej b1
    (fun w hw => h w (List.mem_append_right _ (List.mem_cons_of_mem _ hw))) (by intro p hp; cases hp) e6 e5
  simp only [List.map_nil, List.sum_nil, zero_add, List.nil_append] at g1 g5
  have hall : layDown [] (past ++ v :: later) = a2 ++ (x2, v.ej) :: b2 := by
    rw [C142_resume, layDown, ← hq1, e1, g1]
  refine ⟨x2, ?_, g3, by linarith, by linarith⟩
  rw [hall, List.map_append, List.map_cons, List.reverse_append, List.reverse_cons,
    List.append_assoc, List.getElem?_append_right (by simp; omega)]
  simp [g2, hb1]

/-- **C147** ice that ejecta of its own timestep cover to the depth of gardening, and that sedimentation and gardening
never reach later, is kept. -/
theorem C147_kept (past later : List (Event K)) (v : Event K)
    (h : ∀ w ∈ past ++ v :: later, 0 ≤ w.ice ∧ 0 ≤ w.bsedFrac ∧ w.bsedFrac ≤ 1) (he : 0 ≤ v.ej)
    (hown : v.overturn ≤ v.ej)
    (hlater : ∀ mid w rest, later = mid ++ w :: rest → w.bsedDepth ≤ v.ej + (mid.map (·.ej)).sum ∧
      w.overturn ≤ v.ej + (mid.map (·.ej)).sum + w.ej) :
    ((layDown [] (past ++ v :: later)).map (·.1)).reverse[past.length]? = some v.ice := by
  have key : ∀ (later : List (Event K)) (cover : K), (∀ mid w rest, later = mid ++ w :: rest →
      w.bsedDepth ≤ cover + (mid.map (·.ej)).sum ∧ w.overturn ≤ cover + (mid.map (·.ej)).sum + w.ej) →
      exposure cover later = 0 := by
    intro later
    induction later with
    | nil => intro _ _; rfl
    | cons w ws ih =>
      intro cover hl
      obtain ⟨k1, k2⟩ := hl [] w ws rfl
      simp only [List.map_nil, List.sum_nil, add_zero] at k1 k2
      rw [exposure, max_eq_left (by linarith), max_eq_left (by linarith), ih (cover + w.ej), add_zero, add_zero]
      intro mid u rest hm
      have := hl (w :: mid) u rest (by rw [hm]; rfl)
      rw [List.map_cons, List.sum_cons] at this
      constructor <;> linarith [this.1, this.2]
  obtain ⟨x, h1, h2, h3, h4⟩ := C147_layer past later v h he
  rw [key later v.ej hlater, max_eq_left (by linarith), sub_zero, sub_zero] at h4
  rw [max_eq_left (by linarith : v.overturn - v.ej ≤ 0), min_eq_right (h v (by simp)).1, sub_zero] at h3
  rw [h1, le_antisymm h3 h4]

/-- **C147** a layer no thicker, with its ejecta, than gardening is deep in its own timestep leaves no ice. -/
theorem C147_lost (past later : List (Event K)) (v : Event K)
    (h : ∀ w ∈ past ++ v :: later, 0 ≤ w.ice ∧ 0 ≤ w.bsedFrac ∧ w.bsedFrac ≤ 1) (he : 0 ≤ v.ej)
    (hthin : v.ice + v.ej ≤ v.overturn) :
    ((layDown [] (past ++ v :: later)).map (·.1)).reverse[past.length]? = some 0 := by
  obtain ⟨x, h1, h2, h3, -⟩ := C147_layer past later v h he
  rw [min_eq_left (le_max_of_le_right (by linarith)), sub_self] at h3
  rw [h1, le_antisymm h3 h2]

end

/-- Three timesteps: the first layer is lost, the second keeps what its own gardening left until sedimentation reaches
it, the third is thinned by gardening only.  The bounds are 0, 1/2 and 1. -/
example : ((layDown [] ([⟨1, 0, 1, 0, 0⟩, ⟨2, 1, 2, 0, 0⟩, ⟨2, 1, 2, 3 / 2, 1⟩] : List (Event ℚ))).map (·.1)).reverse =
    [0, 1 / 2, 1] ∧ exposure (1 : ℚ) [⟨2, 1, 2, 3 / 2, 1⟩] = 1 / 2 := by decide +kernel

variable {σ : Type}

/-- **C147** whole runs: every layer of every cold trap is within the bounds. -/
theorem C147_run (g : Gen σ) (hg : LawfulGen g) (c : RunCfg) (d : RunData) (hc : PhysicalCfg c)
    (hd : PhysicalData c d) (hnd : c.coldtrap_names.Nodup) (hcost : c.impact_gardening_costello = true)
    (out : CsvOut) (hrun : runMain g c d = .ok out) :
    ∃ df s time delivered s' dists thick bd bf, craterBasinList g c d (g.init c.seed) = .ok (df, s) ∧
      getTimeArray c.timestart c.timeend c.timestep = .ok time ∧
      iceCols g c d df time s = .ok (delivered, s') ∧
      coldtrapDists c.ej (df.map (·.rest.crater)) c.coldtrap_names = .ok dists ∧
      thicknessMatrix c df dists = .ok thick ∧ bsedArrays c d time df dists thick = .ok (bd, bf) ∧
      ∀ (j : Nat) name, c.coldtrap_names[j]? = some name → ∃ (ice ej : List ℝ) (vs : List (Event ℝ)),
        out.ice.get name = .ok ice ∧ out.ej.get name = .ok ej ∧ vs.length = time.length ∧
        vs.map (·.ej) = ej ∧ vs.map (·.overturn) = overturnDepth c.overturn time ∧
        (∀ (t : Nat) v, vs[t]? = some v → (delivered[t]?).bind (·[j]?) = some v.ice ∧
          (bd[t]?).bind (·[j]?) = some v.bsedDepth) ∧
        ∀ past v later, vs = past ++ v :: later → 0 ≤ v.ej →
          ∃ x, ice[past.length]? = some x ∧ 0 ≤ x ∧ x ≤ v.ice - min v.ice (max 0 (v.overturn - v.ej)) ∧
            v.ice - max 0 (v.overturn - v.ej) - exposure v.ej later ≤ x := by
  obtain ⟨df, s, time, delivered, s', dists, thick, bd, bf, h1, h2, h3, h4, h5, h6, h7⟩ :=
    C142_run g hg c d hc hd hnd hcost out hrun
  refine ⟨df, s, time, delivered, s', dists, thick, bd, bf, h1, h2, h3, h4, h5, h6, ?_⟩
  intro j name hj
  obtain ⟨ice, ej, vs, k1, k2, k3, k4, k5, k6, k7⟩ := h7 j name hj
  refine ⟨ice, ej, vs, k1, k2, k3, k4, k5, fun t v hv => ⟨(k6 t v hv).1, (k6 t v hv).2.1⟩, ?_⟩
  intro past v later hvs he
  have hne : time ≠ [] := by
    intro h0
    rw [h0, hvs] at k3
    simp at k3
  obtain ⟨rows, s3, i1, i2, i3⟩ := iceCols_ok g hg hc hd df (craterBasinList_rad g hd _ _ _ h1) time hne s
  rw [h3] at i1
  injection i1 with i1
  injection i1 with i1 _
  subst i1
  obtain ⟨-, -, -, -, b5⟩ := bsedArrays_ok_inv c d hd time hne df dists thick bd bf h6
  have hall : ∀ w ∈ vs, 0 ≤ w.ice ∧ 0 ≤ w.bsedFrac ∧ w.bsedFrac ≤ 1 := by
    intro w hw
    obtain ⟨t, ht⟩ := List.mem_iff_getElem?.1 hw
    obtain ⟨m1, -, m3⟩ := k6 t w ht
    constructor
    · cases hr : delivered[t]? with
      | none => rw [hr] at m1; cases m1
      | some row =>
        rw [hr, Option.bind_some] at m1
        exact (i3 row (List.mem_of_getElem? hr)).2 _ (List.mem_of_getElem? m1)
    · cases hr : bf[t]? with
      | none => rw [hr] at m3; cases m3
      | some row =>
        rw [hr, Option.bind_some] at m3
        exact b5 row (List.mem_of_getElem? hr) _ (List.mem_of_getElem? m3)
  rw [k7, hvs]
  rw [hvs] at hall
  exact C147_layer past later v hall he

/-- **C147** in a run without sedimentation, ice under at least as much ejecta as gardening is deep at its time is
kept to the present in full. -/
theorem C147_safe (g : Gen σ) (hg : LawfulGen g) (c : RunCfg) (d : RunData) (hc : PhysicalCfg c)
    (hd : PhysicalData c d) (hl : Lunar c d) (hnd : c.coldtrap_names.Nodup)
    (hcost : c.impact_gardening_costello = true) (hsed : c.ballistic_sed = false)
    (hslope : 0 ≤ c.overturn_ancient_slope) (hpres : 0 ≤ c.overturn_depth_present)
    (hdt : 0 < c.timestep) (hts : c.timestep < c.timestart) (hspan : c.timestep ≤ c.timestart - c.timeend)
    (out : CsvOut) (hrun : runMain g c d = .ok out) :
    ∃ df s time delivered s', craterBasinList g c d (g.init c.seed) = .ok (df, s) ∧
      getTimeArray c.timestart c.timeend c.timestep = .ok time ∧
      iceCols g c d df time s = .ok (delivered, s') ∧
      ∀ (j : Nat) name, c.coldtrap_names[j]? = some name → ∃ (ice ej : List ℝ),
        out.ice.get name = .ok ice ∧ out.ej.get name = .ok ej ∧
        ∀ (i : Nat) t e, time[i]? = some t → ej[i]? = some e →
          c.overturn_depth_present * (1 + c.overturn_ancient_slope * max 0 (t - c.overturn_ancient_t0)) ≤ e →
          ∃ x, (delivered[i]?).bind (·[j]?) = some x ∧ ice[i]? = some x := by
  obtain ⟨df, s, time, delivered, s', dists, thick, bd, bf, h1, h2, h3, h4, h5, h6, h7⟩ :=
    C147_run g hg c d hc hd hnd hcost out hrun
  obtain ⟨l, hl1, -, -, hl2, -⟩ := C19_shape_partial c.timestart c.timeend c.timestep hdt hts hspan
  rw [h2] at hl1
  injection hl1 with hl1
  subst hl1
  refine ⟨df, s, time, delivered, s', h1, h2, h3, ?_⟩
  intro j name hj
  obtain ⟨ice, ej, vs, k1, k2, k3, k4, k5, k6, k7⟩ := h7 j name hj
  obtain ⟨ice', ej', table, q1, q2, q3, q4, q5, -⟩ := C85_run_tables_partial g hg c d hc hd hl hnd out hrun name
    (List.mem_of_getElem? hj)
  rw [k2] at q2
  injection q2 with q2
  subst q2
  refine ⟨ice, ej, k1, k2, ?_⟩
  intro i t e ht he hdeep
  have hne : time ≠ [] := by rintro rfl; simp at ht
  have hil : i < vs.length := by rw [k3]; exact (List.getElem?_eq_some_iff.1 ht).1
  -- what holds of every event
  have hev : ∀ (n : Nat) w u, vs[n]? = some w → time[n]? = some u →
      w.overturn = overturnCostello c.overturn u ∧ 0 ≤ w.ej ∧ w.bsedDepth = 0 := by
    intro n w u hw hu
    refine ⟨?_, q5 _ (by rw [← k4]; exact List.mem_map_of_mem (List.mem_of_getElem? hw)), ?_⟩
    · have a : (vs.map (·.overturn))[n]? = some w.overturn := by rw [List.getElem?_map, hw]; rfl
      rw [k5] at a
      unfold overturnDepth at a
      rw [if_pos (by exact hcost), List.getElem?_map, hu] at a
      injection a with a
      exact a.symm
    · obtain ⟨-, m2⟩ := k6 n w hw
      have hz : ∀ row ∈ bd, ∀ x ∈ row, x = 0 := by
        unfold bsedArrays at h6
        obtain ⟨o, ho, h6⟩ := bind_ok_inv h6
        injection h6 with h6
        injection h6 with h6 _
        unfold bsedDepth at ho
        rw [if_pos (by change ¬ c.ballistic_sed = true; rw [hsed]; exact Bool.false_ne_true)] at ho
        injection ho with ho
        subst ho h6
        intro row hr x hx
        obtain ⟨n, -, rfl⟩ := List.mem_map.1 hr
        obtain ⟨col, hcol, hx⟩ := mem_column hx
        obtain ⟨p, hp, rfl⟩ := List.mem_map.1 hcol
        obtain ⟨tr, -, rfl⟩ := List.mem_map.1 hp
        obtain ⟨_, _, rfl⟩ := List.mem_map.1 hx
        rfl
      cases hr : bd[n]? with
      | none => rw [hr] at m2; cases m2
      | some row =>
        rw [hr, Option.bind_some] at m2
        exact hz row (List.mem_of_getElem? hr) _ (List.mem_of_getElem? m2)
  obtain ⟨w, hw⟩ : ∃ w, vs[i]? = some w := ⟨_, List.getElem?_eq_getElem hil⟩
  have hwe : w.ej = e := by
    have a : (vs.map (·.ej))[i]? = some w.ej := by rw [List.getElem?_map, hw]; rfl
    rw [k4, he] at a
    injection a with a
    exact a.symm
  obtain ⟨w1, w2, w3⟩ := hev i w t hw ht
  have hcst := C48_costello c.overturn hslope hpres
  have hform : overturnCostello c.overturn t ≤ e := by
    refine le_trans (le_of_eq ?_) hdeep
    rcases le_total t c.overturn_ancient_t0 with hle | hle
    · rw [hcst.1 t hle, max_eq_left (by linarith), mul_zero, add_zero, mul_one]
      rfl
    · have a := hcst.2.2.2.2 c.overturn_ancient_t0 t le_rfl hle
      rw [hcst.1 c.overturn_ancient_t0 le_rfl] at a
      rw [max_eq_right (by linarith)]
      change overturnCostello c.overturn t - c.overturn_depth_present =
        c.overturn_depth_present * c.overturn_ancient_slope * (t - c.overturn_ancient_t0) at a
      linarith
  have hsplit : vs = vs.take i ++ w :: vs.drop (i + 1) := by
    rw [← (List.getElem?_eq_some_iff.1 hw).2, List.cons_getElem_drop_succ, List.take_append_drop]
  obtain ⟨x, hx1, hx2, hx3, hx4⟩ := k7 _ _ _ hsplit w2
  have hexp : ∀ (m : Nat) (cover : ℝ), i < m → e ≤ cover → exposure cover (vs.drop m) = 0 := by
    intro m
    induction hn : vs.length - m generalizing m with
    | zero =>
      intro cover _ _
      rw [List.drop_eq_nil_of_le (by omega)]
      rfl
    | succ n ih =>
      intro cover him hcov
      have hm : m < vs.length := by omega
      have hmt : m < time.length := by omega
      obtain ⟨u1, u2, u3⟩ := hev m vs[m] time[m] (List.getElem?_eq_getElem hm) (List.getElem?_eq_getElem hmt)
      have hlt : time[m] ≤ t := by
        obtain ⟨hit, rfl⟩ := List.getElem?_eq_some_iff.1 ht
        exact (List.pairwise_iff_getElem.1 hl2 i m hit hmt him).le
      have hmono := hcst.2.2.1 _ _ hlt
      have hpos := hcst.2.1 t
      have hpres' : c.overturn.overturn_depth_present = c.overturn_depth_present := rfl
      rw [List.drop_eq_getElem_cons hm, exposure, u3, u1, max_eq_left (by linarith), max_eq_left (by linarith),
        ih (m + 1) (by omega) (cover + vs[m].ej) (by omega) (by linarith), add_zero, add_zero]
  rw [hexp (i + 1) w.ej (by omega) hwe.ge, w1, hwe, max_eq_left (by linarith), sub_zero, sub_zero] at hx4
  rw [w1, hwe, max_eq_left (by linarith : overturnCostello c.overturn t - e ≤ 0)] at hx3
  have hxi : x = w.ice := by
    refine le_antisymm ?_ hx4
    have : 0 ≤ min w.ice 0 ∨ min w.ice 0 < 0 := le_or_gt _ _
    have hice : 0 ≤ w.ice := by
      by_contra hneg
      push Not at hneg
      obtain ⟨rows, s3, i1, i2, i3⟩ := iceCols_ok g hg hc hd df (craterBasinList_rad g hd _ _ _ h1) time hne s
      rw [h3] at i1
      injection i1 with i1
      injection i1 with i1 _
      subst i1
      obtain ⟨m1, -⟩ := k6 i w hw
      cases hr : delivered[i]? with
      | none => rw [hr] at m1; cases m1
      | some row =>
        rw [hr, Option.bind_some] at m1
        exact absurd ((i3 row (List.mem_of_getElem? hr)).2 _ (List.mem_of_getElem? m1)) (not_le.2 hneg)
    rw [min_eq_right hice] at hx3
    linarith
  refine ⟨x, ?_, ?_⟩
  · rw [(k6 i w hw).1, hxi]
  · rw [List.length_take, min_eq_left hil.le] at hx1
    exact hx1

/-- The default run without sedimentation, whatever the seed and generator: every layer of ice whose own ejecta are at
least 20.25 cm thick is kept in full. -/
example (g : Gen σ) (hg : LawfulGen g) (seed : Int) : ∃ out df s time delivered s',
    runMain g { RunCfg.default seed with ballistic_sed := false } (shippedData [] sortDesc id id) = .ok out ∧
    iceCols g { RunCfg.default seed with ballistic_sed := false } (shippedData [] sortDesc id id) df time s =
      .ok (delivered, s') ∧
    ∀ (j : Nat) name, (RunCfg.default seed).coldtrap_names[j]? = some name → ∃ (ice ej : List ℝ),
      out.ice.get name = .ok ice ∧ out.ej.get name = .ok ej ∧
      ∀ (i : Nat) t e, time[i]? = some t → ej[i]? = some e → 0.2025 ≤ e →
        ∃ x, (delivered[i]?).bind (·[j]?) = some x ∧ ice[i]? = some x := by
  have hp : PhysicalCfg { RunCfg.default seed with ballistic_sed := false } := { default_physical seed with }
  have hd : PhysicalData { RunCfg.default seed with ballistic_sed := false } (shippedData [] sortDesc id id) :=
    { default_data [] sortDesc id id sortDesc_spec seed with }
  have hr := default_runnable [] sortDesc id id seed
  obtain ⟨out, hrun⟩ := C72_returns g hg _ _ hp hd { hr with covers := fun h => by cases h }
  have hdt : (0 : ℝ) < (RunCfg.default seed).timestep := by simp only [RunCfg.default]; norm_num
  have hts : (RunCfg.default seed).timestep < (RunCfg.default seed).timestart := by
    simp only [RunCfg.default]; norm_num
  have hsp : (RunCfg.default seed).timestep ≤ (RunCfg.default seed).timestart - (RunCfg.default seed).timeend := by
    simp only [RunCfg.default]; norm_num
  obtain ⟨df, s, time, delivered, s', h1, h2, h3, h4⟩ := C147_safe g hg _ _ hp hd
    { default_lunar [] sortDesc id id seed with } hr.nodup rfl rfl
    (by simp only [RunCfg.default]; norm_num) (by simp only [RunCfg.default]; norm_num) hdt hts hsp out hrun
  obtain ⟨l, l1, -, -, -, l2⟩ := C19_shape_partial _ _ _ hdt hts hsp
  refine ⟨out, df, s, time, delivered, s', hrun, h3, ?_⟩
  intro j name hj
  obtain ⟨ice, ej, k1, k2, k3⟩ := h4 j name hj
  refine ⟨ice, ej, k1, k2, fun i t e ht he hthick => k3 i t e ht he (le_trans ?_ hthick)⟩
  have hl : time = l := by
    have : (Except.ok time : Except PyErr (List ℝ)) = .ok l := h2.symm.trans l1
    injection this
  have hle := (l2 t (hl ▸ List.mem_of_getElem? ht)).2
  simp only [RunCfg.default] at hle ⊢
  have hm : max 0 (t - 3e9) ≤ 1.25e9 := max_le (by norm_num) (by norm_num at hle ⊢; linarith)
  obtain ⟨m, hm'⟩ : ∃ m : ℝ, m = max 0 (t - 3e9) := ⟨_, rfl⟩
  rw [← hm'] at hm ⊢
  norm_num at hm ⊢
  linarith

end MoonPIES
