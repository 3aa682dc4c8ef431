import Verif.Spec.CannonRun
import Verif.Props.Cannon
import Verif.Props.Run
import Verif.Props.Main
import Verif.Props.Bsed

/-!
# C110: the exact result of a run with the erosion of Cannon et al. (2020)
-/

namespace MoonPIES

open Spec

section
set_option linter.unusedSectionVars false
variable {K : Type} [Field K] [LinearOrder K] [IsStrictOrderedRing K]

theorem eat_zero : ∀ l : List K, (∀ x ∈ l, 0 ≤ x) → eat 0 l = l
  | [], _ => rfl
  | x :: xs, h => by rw [eat, if_pos (h x (by simp)), sub_zero]

theorem eat_nonneg : ∀ (l : List K) (ed : K), (∀ x ∈ l, 0 ≤ x) → ∀ x ∈ eat ed l, 0 ≤ x
  | [], _, _ => by simp [eat]
  | y :: ys, ed, h => by
    intro x hx
    rw [eat] at hx
    split at hx
    · rename_i hle
      rcases List.mem_cons.1 hx with rfl | hx
      · exact sub_nonneg.2 hle
      · exact h x (by simp [hx])
    · rcases List.mem_cons.1 hx with rfl | hx
      · exact le_rfl
      · exact eat_nonneg ys _ (fun z hz => h z (by simp [hz])) x hx

theorem eat_sum : ∀ (l : List K) (ed : K), (∀ x ∈ l, 0 ≤ x) → 0 ≤ ed →
    (eat ed l).sum = max 0 (l.sum - ed)
  | [], ed, _, he => by simp [eat, he]
  | y :: ys, ed, h, he => by
    have hs : 0 ≤ ys.sum := List.sum_nonneg (fun z hz => h z (by simp [hz]))
    rw [eat]
    split
    · rename_i hle
      rw [List.sum_cons, List.sum_cons, max_eq_right (by linarith)]
      ring
    · rename_i hlt
      rw [List.sum_cons, List.sum_cons, eat_sum ys _ (fun z hz => h z (by simp [hz])) (by linarith)]
      rw [zero_add]
      congr 1
      ring

theorem pile_sum (shield ed : K) (he : 0 ≤ ed) : ∀ (r : List (K × K)) (st : List K),
    (∀ x ∈ st, 0 ≤ x) → (∀ p ∈ r, 0 ≤ p.1) → (pile shield ed st r).sum = pileSum shield ed st.sum r
  | [], _, _, _ => rfl
  | (y, e) :: r, st, h, hr => by
    have hy : ∀ x ∈ y :: st, 0 ≤ x := by
      intro x hx
      rcases List.mem_cons.1 hx with rfl | hx
      · exact hr (x, e) (by simp)
      · exact h x hx
    rw [pile, pileSum]
    split
    · rw [pile_sum shield ed he r _ (eat_nonneg _ _ hy) (fun p hp => hr p (by simp [hp])),
        eat_sum _ _ hy he, List.sum_cons, add_comm y]
    · rw [pile_sum shield ed he r _ hy (fun p hp => hr p (by simp [hp])), List.sum_cons, add_comm y]

theorem pile_plenty (shield ed : K) : ∀ (r : List (K × K)) (st : List K), (∀ p ∈ r, ed ≤ p.1) →
    pile shield ed st r = (r.map (keeps shield ed)).reverse ++ st
  | [], _, _ => rfl
  | (y, e) :: r, st, hr => by
    rw [pile, pile_plenty shield ed r _ (fun p hp => hr p (by simp [hp])), eat,
      if_pos (hr (y, e) (by simp)), List.map_cons, List.reverse_cons, List.append_assoc]
    congr 1
    unfold keeps
    split <;> rfl

/-- The erosion of one timestep, as taking ice off a pile. -/
theorem erodeLoop_eat {t base : Int} (hb : base < t) : ∀ (k : Nat) (ed : K) (ice ice' : List K),
    0 ≤ ed → (∀ x ∈ ice, 0 ≤ x) → k ≤ ice.length →
    erodeLoop (fun x => x) t base k ed ice = .ok ice' →
    ice' = (eat ed (ice.take k).reverse).reverse ++ ice.drop k := by
  intro k
  induction k with
  | zero => intro ed ice ice' _ _ _ h; rw [erodeLoop] at h; cases h; simp [eat]
  | succ k ih =>
    intro ed ice ice' hed h0 hk h
    have hx : ice[k]? = some ice[k] := List.getElem?_eq_getElem (by omega)
    generalize ice[k] = x at hx
    have hx0 := h0 x (List.mem_of_getElem? hx)
    have htk : ice.take (k + 1) = ice.take k ++ [x] := by
      rw [List.take_add_one, hx]; rfl
    have hdk : ice.drop k = x :: ice.drop (k + 1) := by
      obtain ⟨h1, h2⟩ := List.getElem?_eq_some_iff.1 hx
      rw [← h2, List.getElem_cons_drop]
    rw [erodeLoop] at h
    by_cases hp : ed > 0
    · rw [if_pos hp, if_pos hb, hx] at h
      simp only [] at h
      have hlen : (ice.set k (if x ≥ ed then x - ed else 0)).length = ice.length := by simp
      have htake : (ice.set k (if x ≥ ed then x - ed else 0)).take k = ice.take k := by
        rw [List.take_set_of_le (le_refl k)]
      have hdrop : (ice.set k (if x ≥ ed then x - ed else 0)).drop k =
          (if x ≥ ed then x - ed else 0) :: ice.drop (k + 1) := by
        rw [List.drop_set, if_neg (lt_irrefl k), Nat.sub_self, hdk]
        rfl
      rw [htk, List.reverse_append, List.reverse_singleton, List.singleton_append, eat]
      by_cases hge : ed ≤ x
      · rw [if_pos hge]
        have hstop : ¬ (ed - x > 0) := by simpa using hge
        have : erodeLoop (fun x => x) t base k (ed - x) (ice.set k (if x ≥ ed then x - ed else 0)) =
            .ok (ice.set k (if x ≥ ed then x - ed else 0)) := by
          cases k with
          | zero => rfl
          | succ k => rw [erodeLoop, if_neg hstop]
        rw [this] at h
        cases h
        rw [List.reverse_cons, List.reverse_reverse, List.append_assoc, List.singleton_append]
        conv_lhs => rw [← List.take_append_drop k (ice.set k _), htake, hdrop, if_pos hge]
      · rw [if_neg hge]
        have := ih (ed - x) _ ice' (by linarith [not_le.1 hge])
          (by
            intro z hz
            rcases List.mem_or_eq_of_mem_set hz with hz | rfl
            · exact h0 z hz
            · rw [if_neg hge]) (by rw [hlen]; omega) h
        rw [this, htake, hdrop, if_neg hge, List.reverse_cons, List.append_assoc, List.singleton_append]
    · rw [if_neg hp] at h
      cases h
      have : ed = 0 := le_antisymm (not_lt.1 hp) hed
      rw [this, eat_zero, List.reverse_reverse, List.take_append_drop]
      intro z hz
      exact h0 z (List.mem_of_mem_take (List.mem_reverse.1 hz))

/-- **C110** a column under this erosion alone is the pile of what was delivered to it. -/
theorem C110_column (shield ed : K) (hed : 0 ≤ ed) (ej : List K) : ∀ (ovs : List K) (t : Nat) (ice ice' : List K),
    (∀ o ∈ ovs, o = ed) → (∀ x ∈ ice, 0 ≤ x) → ice.length = t + ovs.length → ej.length = ice.length →
    overturnOnly (fun x => x) shield false ej t ovs ice = .ok ice' →
    ice' = (pile shield ed (ice.take t).reverse ((ice.drop t).zip (ej.drop t))).reverse := by
  intro ovs
  induction ovs with
  | nil =>
    intro t ice ice' _ _ hl _ h
    cases h
    rw [List.length_nil, Nat.add_zero] at hl
    rw [← hl, List.take_length, List.drop_length, List.zip_nil_left, pile, List.reverse_reverse]
  | cons o ovs ih =>
    intro t ice ice' ho h0 hl hej h
    rw [List.length_cons] at hl
    have hoe : o = ed := ho o (by simp)
    subst hoe
    rw [overturnOnly] at h
    obtain ⟨mid, h1, h2⟩ := bind_ok_inv h
    have hx : ice.drop t = ice[t]'(by omega) :: ice.drop (t + 1) := (List.getElem_cons_drop ..).symm
    have he : ej.drop t = ej[t]'(by omega) :: ej.drop (t + 1) := (List.getElem_cons_drop ..).symm
    have he' : ej[t]? = some (ej[t]'(by omega)) := List.getElem?_eq_getElem _
    have htk : (ice.take (t + 1)).reverse = ice[t]'(by omega) :: (ice.take t).reverse := by
      rw [List.take_add_one, List.getElem?_eq_getElem (by omega), Option.toList_some, List.reverse_append]
      rfl
    have h1' : erodeIceCannon (fun x => x) ice ej t o shield = .ok mid := h1
    rw [hx, he, List.zip_cons_cons, pile, ← htk]
    by_cases hs : ej[t]'(by omega) ≤ shield
    · rw [if_pos hs]
      have hb : erosionBase ej t shield < t := (erosionBase_lt_iff ej t shield).2 (fun f hf => by
        rw [he'] at hf; injection hf with hf; rw [← hf]; exact hs)
      have hmid := erodeLoop_eat hb (t + 1) o ice mid hed h0 (by omega) h1'
      have hel : ∀ (l : List K) (ed : K), (eat ed l).length = l.length := by
        intro l
        induction l with
        | nil => intro _; rfl
        | cons a l ih => intro ed; rw [eat]; split <;> simp [ih]
      have hml : (eat o (ice.take (t + 1)).reverse).reverse.length = t + 1 := by
        rw [List.length_reverse, hel, List.length_reverse, List.length_take]; omega
      have hm1 : mid.take (t + 1) = (eat o (ice.take (t + 1)).reverse).reverse := by
        rw [hmid, List.take_left' hml]
      have hm2 : mid.drop (t + 1) = ice.drop (t + 1) := by
        rw [hmid, List.drop_left' hml]
      have hmlen : mid.length = ice.length := by
        rw [hmid, List.length_append, hml, List.length_drop]; omega
      have hm0 : ∀ x ∈ mid, 0 ≤ x := by
        intro x hm
        rw [hmid] at hm
        rcases List.mem_append.1 hm with hm | hm
        · exact eat_nonneg _ _ (fun z hz => h0 z (List.mem_of_mem_take (List.mem_reverse.1 hz))) x
            (List.mem_reverse.1 hm)
        · exact h0 x (List.mem_of_mem_drop hm)
      have := ih (t + 1) mid ice' (fun p hp => ho p (by simp [hp])) hm0 (by omega) (by omega) h2
      rw [this, hm1, hm2, List.reverse_reverse]
    · rw [if_neg hs]
      rw [C08_surface_shield_partial _ ice ej t o shield _ he' (not_le.1 hs)] at h1'
      cases h1'
      exact ih (t + 1) ice ice' (fun p hp => ho p (by simp [hp])) h0 (by omega) hej h2

end

variable {σ : Type}

/-- **C110** whenever a run with this erosion and without ballistic sedimentation returns: the ice of
every cold trap is the pile of the ice delivered to it, with the same depth taken at every timestep not
shielded by ejecta.  Its total is what was delivered less what was taken while there was ice; and if
every timestep brings at least what is taken, each layer is what was delivered less that, or all of it
when shielded. -/
theorem C110_run (g : Gen σ) (hg : LawfulGen g) (c : RunCfg) (d : RunData) (hc : PhysicalCfg c)
    (hd : PhysicalData c d) (hnd : c.coldtrap_names.Nodup)
    (hcost : c.impact_gardening_costello = false) (hbs : c.ballistic_sed = false)
    (hed : 0 ≤ c.ice_erosion_rate * (c.timestep / 1e7)) (out : CsvOut)
    (hrun : runMain g c d = .ok out) :
    ∃ df s time delivered s', craterBasinList g c d (g.init c.seed) = .ok (df, s) ∧
      getTimeArray c.timestart c.timeend c.timestep = .ok time ∧
      iceCols g c d df time s = .ok (delivered, s') ∧ delivered.length = time.length ∧
      ∀ (j : Nat) name, c.coldtrap_names[j]? = some name → ∃ ys ice ej : List ℝ,
        ys.length = time.length ∧
        (∀ (i : Nat) row, delivered[i]? = some row → ys[i]? = row[j]? ∧ row[j]?.isSome = true) ∧
        out.ice.get name = .ok ice ∧ out.ej.get name = .ok ej ∧ ej.length = time.length ∧
        ice = (pile 0.4 (c.ice_erosion_rate * (c.timestep / 1e7)) [] (ys.zip ej)).reverse ∧
        ice.sum = pileSum 0.4 (c.ice_erosion_rate * (c.timestep / 1e7)) 0 (ys.zip ej) ∧
        ((∀ y ∈ ys, c.ice_erosion_rate * (c.timestep / 1e7) ≤ y) →
          ice = (ys.zip ej).map (keeps 0.4 (c.ice_erosion_rate * (c.timestep / 1e7)))) := by
  unfold runMain at hrun
  obtain ⟨st, hst, hrun⟩ := bind_ok_inv hrun
  obtain ⟨cols, hcols, hrun⟩ := bind_ok_inv hrun
  have hrun := liftPy_ok hrun
  have hcols := liftPy_ok hcols
  obtain ⟨hne, hfmt⟩ := formatCsv_inv _ _ _ _ _ _ hrun
  obtain ⟨ht, s, s', rows, hdf, hice, hrl, hrn, hget, hall⟩ := setup_cols g hg hc hd hnd hne st hst
  obtain ⟨s1, s2, dists, thick, h1, -, -, -, -, hbsed, hov⟩ := setup_inv g c d st hst
  have hov' : st.overturn = st.time.map (fun _ => c.ice_erosion_rate * (c.timestep / 1e7)) := by
    rw [hov]
    unfold overturnDepth
    have : c.overturn.impact_gardening_costello = false := hcost
    rw [if_neg (by rw [this]; simp)]
    apply List.map_congr_left
    intro _ _
    show c.ice_erosion_rate * (c.timestep / 10000000) * 1 = _
    rw [mul_one]
    norm_num
  have hzero : ∀ row ∈ st.bsedDepth, ∀ x ∈ row, x ≤ 0 := by
    unfold bsedArrays at hbsed
    obtain ⟨o, ho, hbsed⟩ := bind_ok_inv hbsed
    injection hbsed with hbsed
    injection hbsed with hb1 hb2
    obtain ⟨o', ho', -, hz⟩ := C51_off c.bsed d.melt (mixingRatio c.mixing_ratio_petro c.mixing_ratio_a
      c.mixing_ratio_b) st.time (st.df.map (·.age)) (st.df.map (·.rest.crater.isbasin))
      ((List.range c.coldtrap_names.length).map (fun i => (column dists i, column thick i))) hbs
    rw [ho'] at ho
    injection ho with ho
    subst ho
    rw [← hb1]
    intro row hrow x hx
    obtain ⟨i, -, rfl⟩ := List.mem_map.1 hrow
    obtain ⟨l, hl, hxl⟩ := mem_column hx
    obtain ⟨p, hp, rfl⟩ := List.mem_map.1 hl
    exact ((hz p hp).2.2.1 x hxl).le
  refine ⟨st.df, s, st.time, rows, s', hdf, h1, hice, hrl, ?_⟩
  intro j name hj
  have hn := List.mem_of_getElem? hj
  obtain ⟨r, hr, hrn', col, table, t1, t2, t3, t4, t5⟩ := hfmt name hn
  obtain ⟨col0, k8, k9⟩ := hget j name hj
  rw [hcost] at hcols
  obtain ⟨c', g1, g2, g3, g4⟩ := C13_no_sedimentation id ejShield false c.coldtrap_names hnd st.cols cols
    st.overturn st.bsedDepth st.bsedFrac hzero hcols name hn col0 k8
  rw [t1] at g1
  injection g1 with g1
  subst g1
  obtain ⟨l1, l2, l3, l4⟩ := hall _ (PyDict.mem_of_get k8)
  obtain ⟨m1, m2⟩ := column_spec (List.getElem?_eq_some_iff.1 hj).1 rows (fun row hr => (hrn row hr).1)
  have hfin := C110_column ejShield _ hed col0.ej st.overturn 0 col0.ice col.ice
    (by rw [hov']; intro o ho; obtain ⟨_, -, rfl⟩ := List.mem_map.1 ho; rfl) l4
    (by rw [hov', List.length_map, l1]; omega) (by rw [l1, l2]) g4
  simp only [List.take_zero, List.drop_zero, List.reverse_nil] at hfin
  refine ⟨col0.ice, col.ice, col.ej, l1, ?_, t3, t4, by rw [g2, l2], ?_, ?_, ?_⟩
  · intro i row hrow
    refine ⟨by rw [k9]; exact m2 i row hrow, ?_⟩
    rw [List.getElem?_eq_getElem (by
      rw [(hrn row (List.mem_of_getElem? hrow)).1]; exact (List.getElem?_eq_some_iff.1 hj).1)]
    rfl
  · rw [hfin, g2]; rfl
  · rw [hfin, g2, List.sum_reverse, pile_sum _ _ hed]
    · rfl
    · simp
    · intro p hp
      exact l4 _ (List.of_mem_zip hp).1
  · intro hy
    rw [hfin, g2, pile_plenty]
    · rw [List.append_nil, List.reverse_reverse]; rfl
    · intro p hp
      exact hy _ (List.of_mem_zip hp).1

theorem cannon_erosion (seed : Int) :
    (RunCfg.cannon seed).ice_erosion_rate * ((RunCfg.cannon seed).timestep / 1e7) = 0.1 := by
  simp only [RunCfg.cannon, RunCfg.default]
  norm_num

/-- **C110** the mode that reproduces Cannon et al. (2020), with its defaults and the shipped files: for
every seed and generator a run returns and takes 0.1 m of ice at every timestep with at most 0.4 m of
ejecta. -/
theorem C110_cannon (nk : List (ℝ × ℝ)) (sortAges : CraterTable → CraterTable)
    (sortNk : List (ℝ × ℝ) → List (ℝ × ℝ)) (setOrder : List (List Char) → List (List Char))
    (g : Gen σ) (hg : LawfulGen g) (hs : Spec.SortDesc sortAges) (seed : Int) :
    ∃ out df s time delivered s',
      runMain g (RunCfg.cannon seed) (shippedData nk sortAges sortNk setOrder) = .ok out ∧
      craterBasinList g (RunCfg.cannon seed) (shippedData nk sortAges sortNk setOrder) (g.init seed) =
        .ok (df, s) ∧
      getTimeArray 4.25e9 0 10e6 = .ok time ∧
      iceCols g (RunCfg.cannon seed) (shippedData nk sortAges sortNk setOrder) df time s =
        .ok (delivered, s') ∧
      ∀ (j : Nat) name, (RunCfg.cannon seed).coldtrap_names[j]? = some name → ∃ ys ice ej : List ℝ,
        ys.length = time.length ∧
        (∀ (i : Nat) row, delivered[i]? = some row → ys[i]? = row[j]? ∧ row[j]?.isSome = true) ∧
        out.ice.get name = .ok ice ∧ out.ej.get name = .ok ej ∧ ej.length = time.length ∧
        ice = (pile 0.4 0.1 [] (ys.zip ej)).reverse ∧ ice.sum = pileSum 0.4 0.1 0 (ys.zip ej) := by
  obtain ⟨-, out, hrun⟩ := C74_default_returns nk sortAges sortNk setOrder g hg hs seed
  obtain ⟨df, s, time, delivered, s', h1, h2, h3, -, h5⟩ := C110_run g hg _ _ (cannon_physical seed)
    (cannon_data _ _ _ _ hs seed) (cannon_runnable nk sortAges sortNk setOrder seed).nodup rfl rfl
    (by rw [cannon_erosion]; norm_num) out hrun
  refine ⟨out, df, s, time, delivered, s', hrun, h1, h2, h3, ?_⟩
  intro j name hj
  obtain ⟨ys, ice, ej, a1, a2, a3, a4, a5, a6, a7, -⟩ := h5 j name hj
  rw [cannon_erosion] at a6 a7
  exact ⟨ys, ice, ej, a1, a2, a3, a4, a5, a6, a7⟩

/-- Three timesteps: the first keeps its ice until the third, which brings less than is taken; the second
is shielded. -/
example : pile (2 / 5 : ℚ) (1 / 10) [] [(1, 0), (1 / 50, 1), (1 / 20, 2 / 5)] = [0, 0, 87 / 100] ∧
    pileSum (2 / 5 : ℚ) (1 / 10) 0 [(1, 0), (1 / 50, 1), (1 / 20, 2 / 5)] = 87 / 100 ∧
    overturnOnly (fun x => x) (2 / 5 : ℚ) false [0, 1, 2 / 5] 0 [1 / 10, 1 / 10, 1 / 10] [1, 1 / 50, 1 / 20] =
      .ok [87 / 100, 0, 0] := by decide +kernel

end MoonPIES
