import Verif.Spec.Average
import Verif.Props.CannonRun
import Verif.Props.Sensitive
import Mathlib.Algebra.BigOperators.Fin

/-!
# C158: averaging before or after the losses
-/

namespace MoonPIES

open Spec Finset

section
set_option linter.unusedSectionVars false
variable {K ι : Type} [Field K] [LinearOrder K] [IsStrictOrderedRing K] [Fintype ι]

theorem meanColumn_cons {w : ι → K} {ys : ι → List K} {x : K} {m : List K} (h : MeanColumn w ys (x :: m)) :
    ∃ (y : ι → K) (zs : ι → List K), (∀ i, ys i = y i :: zs i) ∧ x = ∑ i, w i * y i ∧ MeanColumn w zs m := by
  obtain ⟨y, h1, h2⟩ := h.entry 0 x rfl
  refine ⟨y, fun i => (ys i).tail, fun i => ?_, h2, ⟨fun i => ?_, fun k z hk => ?_⟩⟩
  · cases hy : ys i with
    | nil => have := h1 i; rw [hy] at this; cases this
    | cons a l =>
      have := h1 i
      rw [hy] at this
      injection this with this
      subst this
      simp only [hy, List.tail_cons]
  · rw [List.length_tail, h.length i]
    rfl
  · obtain ⟨v, v1, v2⟩ := h.entry (k + 1) z (by simpa using hk)
    exact ⟨v, fun i => by rw [List.getElem?_tail]; exact v1 i, v2⟩

theorem pileSum_mono (shield ed : K) : ∀ (r : List (K × K)) (s s' : K), s ≤ s' →
    pileSum shield ed s r ≤ pileSum shield ed s' r
  | [], _, _, h => h
  | (y, e) :: r, s, s', h => by
    rw [pileSum, pileSum]
    refine pileSum_mono shield ed r _ _ ?_
    split
    · exact max_le_max le_rfl (by linarith)
    · linarith

theorem pileSum_mean {w : ι → K} (hw : Weights w) (shield ed : K) : ∀ (ej m : List K) (ys : ι → List K) (S : ι → K),
    MeanColumn w ys m →
    pileSum shield ed (∑ i, w i * S i) (m.zip ej) ≤ ∑ i, w i * pileSum shield ed (S i) ((ys i).zip ej)
  | [], m, ys, S, _ => by simp [pileSum]
  | e :: ej, [], ys, S, hm => by
    have : ∀ i, ys i = [] := fun i => List.eq_nil_of_length_eq_zero (hm.length i)
    simp [pileSum, this]
  | e :: ej, x :: m, ys, S, hm => by
    obtain ⟨y, zs, h1, h2, h3⟩ := meanColumn_cons hm
    rw [List.zip_cons_cons, pileSum]
    refine (pileSum_mono shield ed _ _ (∑ i, w i * (if e ≤ shield then max 0 (S i + y i - ed) else S i + y i)) ?_).trans
      ((pileSum_mean hw shield ed ej m zs _ h3).trans_eq ?_)
    · split
      · refine max_le (sum_nonneg fun i _ => mul_nonneg (hw.nonneg i) (le_max_left _ _)) ?_
        have : (∑ i, w i * S i) + x - ed = ∑ i, w i * (S i + y i - ed) := by
          rw [h2, ← sum_add_distrib]
          have e1 : ed = ∑ i, w i * ed := by rw [← sum_mul, hw.total, one_mul]
          rw [show (∑ i, (w i * S i + w i * y i)) - ed = (∑ i, (w i * S i + w i * y i)) - ∑ i, w i * ed by rw [← e1],
            ← sum_sub_distrib]
          exact sum_congr rfl fun i _ => by ring
        rw [this]
        exact sum_le_sum fun i _ => mul_le_mul_of_nonneg_left (le_max_right _ _) (hw.nonneg i)
      · rw [h2, ← sum_add_distrib]
        exact le_of_eq (sum_congr rfl fun i _ => by ring)
    · refine sum_congr rfl fun i _ => ?_
      rw [h1 i, List.zip_cons_cons, pileSum]

theorem meanColumn_nonneg {w : ι → K} (hw : Weights w) {ys : ι → List K} {m : List K} (hm : MeanColumn w ys m)
    (h0 : ∀ i, ∀ y ∈ ys i, 0 ≤ y) : ∀ x ∈ m, 0 ≤ x := by
  intro x hx
  obtain ⟨k, hk⟩ := List.mem_iff_getElem?.1 hx
  obtain ⟨y, h1, rfl⟩ := hm.entry k x hk
  exact sum_nonneg fun i _ => mul_nonneg (hw.nonneg i) (h0 i _ (List.mem_of_getElem? (h1 i)))

theorem pile_mean {w : ι → K} (hw : Weights w) (shield ed : K) (hed : 0 ≤ ed) (ej m : List K) (ys : ι → List K)
    (hm : MeanColumn w ys m) (h0 : ∀ i, ∀ y ∈ ys i, 0 ≤ y) :
    (pile shield ed [] (m.zip ej)).sum ≤ ∑ i, w i * (pile shield ed [] ((ys i).zip ej)).sum := by
  have nn : ∀ l : List K, (∀ y ∈ l, 0 ≤ y) → ∀ p ∈ l.zip ej, (0 : K) ≤ p.1 := fun l hl p hp =>
    hl _ (List.of_mem_zip hp).1
  rw [pile_sum shield ed hed _ _ (by simp) (nn m (meanColumn_nonneg hw hm h0)), List.sum_nil]
  have := pileSum_mean hw shield ed ej m ys (fun _ => 0) hm
  simp only [mul_zero, sum_const_zero] at this
  refine this.trans_eq (sum_congr rfl fun i _ => ?_)
  rw [pile_sum shield ed hed _ _ (by simp) (nn _ (h0 i)), List.sum_nil]

/-- **C158** Columns with the same ejecta under the erosion of Cannon et al. alone: of the mean delivery not more
is left than the mean of what is left of each delivery. -/
theorem C158_column {w : ι → K} (hw : Weights w) (shield ed : K) (hed : 0 ≤ ed) (ej ovs m r : List K)
    (ys rs : ι → List K) (ho : ∀ o ∈ ovs, o = ed) (h0 : ∀ i, ∀ y ∈ ys i, 0 ≤ y) (hm : MeanColumn w ys m)
    (hl : m.length = ovs.length) (hej : ej.length = ovs.length)
    (h : overturnOnly (fun x => x) shield false ej 0 ovs m = .ok r)
    (hs : ∀ i, overturnOnly (fun x => x) shield false ej 0 ovs (ys i) = .ok (rs i)) :
    r.sum ≤ ∑ i, w i * (rs i).sum := by
  have e1 := C110_column shield ed hed ej ovs 0 m r ho (meanColumn_nonneg hw hm h0) (by omega) (by omega) h
  have e2 : ∀ i, (rs i).sum = (pile shield ed [] ((ys i).zip ej)).sum := by
    intro i
    have hli := hm.length i
    have := C110_column shield ed hed ej ovs 0 (ys i) (rs i) ho (h0 i) (by omega) (by omega) (hs i)
    simp only [List.take_zero, List.drop_zero, List.reverse_nil] at this
    rw [this, List.sum_reverse]
  simp only [List.take_zero, List.drop_zero, List.reverse_nil] at e1
  rw [e1, List.sum_reverse]
  simp only [e2]
  exact pile_mean hw shield ed hed ej m ys hm h0

/-- C158 where the mean of what is left is more: erosion takes 2 m of ice, 0 and 4 m leave 1 m in the mean, 2 m
leave nothing. -/
example : overturnOnly (fun x => x) (4 / 10) false [0] 0 [2] ([0] : List ℚ) = .ok [0] ∧
    overturnOnly (fun x => x) (4 / 10) false [0] 0 [2] ([4] : List ℚ) = .ok [2] ∧
    overturnOnly (fun x => x) (4 / 10) false [0] 0 [2] ([2] : List ℚ) = .ok [0] ∧
    MeanColumn (fun _ : Fin 2 => (1 / 2 : ℚ)) ![[0], [4]] [2] ∧ Weights (fun _ : Fin 2 => (1 / 2 : ℚ)) := by
  refine ⟨by decide +kernel, by decide +kernel, by decide +kernel, ⟨by decide, ?_⟩, ⟨by intro i; norm_num, by simp⟩⟩
  intro k x hk
  cases k with
  | succ k => simp at hk
  | zero =>
    simp only [List.getElem?_cons_zero, Option.some.injEq] at hk
    subst hk
    exact ⟨![0, 4], by decide, by rw [Fin.sum_univ_two]; norm_num⟩

end

/-- **C158** The gardening of Costello et al. has neither inequality: with 2 m of old ice under new ice and 1 m of
gardening, 1 and 3 m of new ice leave 2.5 m in the mean, 2 m leave 3 m; 0.5 and 1.5 m leave 1.5 m in the mean, 1 m
leaves 1 m. -/
theorem C158_costello : ∃ f : ℚ → ℚ, (∀ x ∈ ([1 / 2, 1, 3 / 2, 2, 3] : List ℚ), ∃ r : List ℚ,
      overturnOnly (fun x => x) (4 / 10) true [0, 0] 0 [0, 1] [2, x] = .ok r ∧ r.sum = f x) ∧
    (f 1 + f 3) / 2 < f 2 ∧ f 1 < (f (1 / 2) + f (3 / 2)) / 2 := by
  refine ⟨fun x => if x ≤ 1 then 1 else if x ≤ 2 then 2 * x - 1 else x + 1, ?_, by norm_num, by norm_num⟩
  intro x hx
  simp only [List.mem_cons, List.not_mem_nil, or_false] at hx
  rcases hx with rfl | rfl | rfl | rfl | rfl
  · exact ⟨[1, 0], by decide +kernel, by norm_num⟩
  · exact ⟨[1, 0], by decide +kernel, by norm_num⟩
  · exact ⟨[3 / 2, 1 / 2], by decide +kernel, by norm_num⟩
  · exact ⟨[2, 1], by decide +kernel, by norm_num⟩
  · exact ⟨[2, 2], by decide +kernel, by norm_num⟩

variable {σ ι : Type} [Fintype ι]

theorem cannon_ensemble (g : ι → Gen σ) (hg : ∀ i, LawfulGen (g i)) (c : ι → RunCfg)
    (d : ι → RunData) (hc : ∀ i, PhysicalCfg (c i)) (hd : ∀ i, PhysicalData (c i) (d i))
    (hnd : ∀ i, (c i).coldtrap_names.Nodup) (hcost : ∀ i, (c i).impact_gardening_costello = false)
    (hbs : ∀ i, (c i).ballistic_sed = false) (ed : ℝ) (hed : 0 ≤ ed)
    (hrate : ∀ i, (c i).ice_erosion_rate * ((c i).timestep / 1e7) = ed) (time : List ℝ) (htne : time ≠ [])
    (htime : ∀ i, getTimeArray (c i).timestart (c i).timeend (c i).timestep = .ok time) (out : ι → CsvOut)
    (hrun : ∀ i, runMain (g i) (c i) (d i) = .ok (out i)) (j : Nat) (name : String)
    (hj : ∀ i, (c i).coldtrap_names[j]? = some name) (ej : List ℝ)
    (hej : ∀ i, (out i).ej.get name = .ok ej) :
    ∃ (df : ι → CraterTable) (s s' : ι → σ) (delivered : ι → List (List ℝ)) (ys ice : ι → List ℝ),
      (∀ i, craterBasinList (g i) (c i) (d i) ((g i).init (c i).seed) = .ok (df i, s i)) ∧
      (∀ i, iceCols (g i) (c i) (d i) (df i) time (s i) = .ok (delivered i, s' i)) ∧
      (∀ i, (ys i).length = time.length) ∧
      (∀ i (k : Nat) row, (delivered i)[k]? = some row → (ys i)[k]? = row[j]? ∧ row[j]?.isSome = true) ∧
      (∀ i, (out i).ice.get name = .ok (ice i)) ∧
      (∀ i, ∀ y ∈ ys i, 0 ≤ y) ∧ ∀ i, (ice i).sum = (pile 0.4 ed [] ((ys i).zip ej)).sum := by
  have main : ∀ i, ∃ (df : CraterTable) (s s' : σ) (delivered : List (List ℝ)) (ys ice : List ℝ),
      craterBasinList (g i) (c i) (d i) ((g i).init (c i).seed) = .ok (df, s) ∧
      iceCols (g i) (c i) (d i) df time s = .ok (delivered, s') ∧ ys.length = time.length ∧
      (∀ (k : Nat) row, delivered[k]? = some row → ys[k]? = row[j]? ∧ row[j]?.isSome = true) ∧
      (out i).ice.get name = .ok ice ∧ (∀ y ∈ ys, 0 ≤ y) ∧ ice.sum = (pile 0.4 ed [] (ys.zip ej)).sum := by
    intro i
    obtain ⟨df, s, time', del, s', a1, a2, a3, a4, a5⟩ := C110_run (g i) (hg i) (c i) (d i) (hc i) (hd i) (hnd i)
      (hcost i) (hbs i) (by rw [hrate i]; exact hed) (out i) (hrun i)
    rw [htime i] at a2
    injection a2 with a2
    subst a2
    obtain ⟨ys, ice, ej', y1, y2, y3, y4, y5, y6, -, -⟩ := a5 j name (hj i)
    rw [hej i] at y4
    injection y4 with y4
    subst y4
    refine ⟨df, s, s', del, ys, ice, a1, a3, y1, y2, y3, ?_, by rw [y6, List.sum_reverse, hrate i]⟩
    have hrad := craterBasinList_rad (g i) (hd i) _ _ _ a1
    obtain ⟨rows, v, w1, -, w3⟩ := iceCols_ok (g i) (hg i) (hc i) (hd i) df hrad time htne s
    rw [a3] at w1
    injection w1 with w1
    injection w1 with w1 w2
    intro y hy
    obtain ⟨k, hk⟩ := List.mem_iff_getElem?.1 hy
    have hil : k < del.length := by rw [a4, ← y1]; exact (List.getElem?_eq_some_iff.1 hk).1
    have g1 := (y2 k _ (List.getElem?_eq_getElem hil)).1
    rw [hk] at g1
    exact (w3 _ (by rw [← w1]; exact List.getElem_mem hil)).2 _ (List.mem_of_getElem? g1.symm)
  choose df s s' del ys ice m1 m2 m3 m4 m5 m6 m7 using main
  exact ⟨df, s, s', del, ys, ice, m1, m2, m3, m4, m5, m6, m7⟩

/-- **C158** An ensemble of runs with the erosion of Cannon et al. and no ballistic sedimentation, at the same rate
and times: where a cold trap gets the same ejecta in all of them, the mean of the ice it keeps is at least what it
would keep of the mean of the ice delivered to it. -/
theorem C158_run {w : ι → ℝ} (hw : Weights w) (g : ι → Gen σ) (hg : ∀ i, LawfulGen (g i)) (c : ι → RunCfg)
    (d : ι → RunData) (hc : ∀ i, PhysicalCfg (c i)) (hd : ∀ i, PhysicalData (c i) (d i))
    (hnd : ∀ i, (c i).coldtrap_names.Nodup) (hcost : ∀ i, (c i).impact_gardening_costello = false)
    (hbs : ∀ i, (c i).ballistic_sed = false) (ed : ℝ) (hed : 0 ≤ ed)
    (hrate : ∀ i, (c i).ice_erosion_rate * ((c i).timestep / 1e7) = ed) (time : List ℝ) (htne : time ≠ [])
    (htime : ∀ i, getTimeArray (c i).timestart (c i).timeend (c i).timestep = .ok time) (out : ι → CsvOut)
    (hrun : ∀ i, runMain (g i) (c i) (d i) = .ok (out i)) (j : Nat) (name : String)
    (hj : ∀ i, (c i).coldtrap_names[j]? = some name) (ej : List ℝ)
    (hej : ∀ i, (out i).ej.get name = .ok ej) :
    ∃ (df : ι → CraterTable) (s s' : ι → σ) (delivered : ι → List (List ℝ)) (ys ice : ι → List ℝ),
      (∀ i, craterBasinList (g i) (c i) (d i) ((g i).init (c i).seed) = .ok (df i, s i)) ∧
      (∀ i, iceCols (g i) (c i) (d i) (df i) time (s i) = .ok (delivered i, s' i)) ∧
      (∀ i, (ys i).length = time.length) ∧
      (∀ i (k : Nat) row, (delivered i)[k]? = some row → (ys i)[k]? = row[j]? ∧ row[j]?.isSome = true) ∧
      (∀ i, (out i).ice.get name = .ok (ice i)) ∧
      ∀ m, MeanColumn w ys m → (pile 0.4 ed [] (m.zip ej)).sum ≤ ∑ i, w i * (ice i).sum := by
  obtain ⟨df, s, s', del, ys, ice, m1, m2, m3, m4, m5, m6, m7⟩ := cannon_ensemble g hg c d hc hd hnd hcost hbs ed hed
    hrate time htne htime out hrun j name hj ej hej
  refine ⟨df, s, s', del, ys, ice, m1, m2, m3, m4, m5, fun m hm => ?_⟩
  simp only [m7]
  exact pile_mean hw 0.4 ed hed ej m ys hm m6

/-- C158 applies to a hundred runs that reproduce Cannon et al. (2020) with the shipped files, whatever their seeds,
in every cold trap where they have the same ejecta. -/
example (nk : List (ℝ × ℝ)) (sortAges : CraterTable → CraterTable) (sortNk : List (ℝ × ℝ) → List (ℝ × ℝ))
    (setOrder : List (List Char) → List (List Char)) (g : Gen σ) (hg : LawfulGen g) (hs : Spec.SortDesc sortAges)
    (seed : Fin 100 → Int) : ∃ out : Fin 100 → CsvOut,
      (∀ i, runMain g (RunCfg.cannon (seed i)) (shippedData nk sortAges sortNk setOrder) = .ok (out i)) ∧
      ∀ ej, (∀ i, (out i).ej.get "Shoemaker" = .ok ej) → ∃ ys ice : Fin 100 → List ℝ,
        (∀ i, (out i).ice.get "Shoemaker" = .ok (ice i)) ∧
        ∀ m, MeanColumn (fun _ => 1 / 100) ys m →
          (pile 0.4 0.1 [] (m.zip ej)).sum ≤ ∑ i, 1 / 100 * (ice i).sum := by
  have hr : ∀ i, ∃ out, runMain g (RunCfg.cannon (seed i)) (shippedData nk sortAges sortNk setOrder) = .ok out :=
    fun i => (C74_default_returns nk sortAges sortNk setOrder g hg hs (seed i)).2
  choose out hout using hr
  refine ⟨out, hout, fun ej hej => ?_⟩
  obtain ⟨time, ht, htne⟩ : ∃ time : List ℝ, getTimeArray (4.25e9 : ℝ) 0 10e6 = .ok time ∧ time ≠ [] :=
    ⟨_, C19_uniform_partial (4.25e9 : ℝ) 10e6 425 (by norm_num) (by norm_num) (by norm_num), by simp [uniformGrid]⟩
  obtain ⟨_, _, _, _, ys, ice, -, -, -, -, h5, h6⟩ := C158_run (w := fun _ : Fin 100 => (1 / 100 : ℝ))
    ⟨fun _ => by norm_num, by simp⟩ (fun _ => g) (fun _ => hg) (fun i => RunCfg.cannon (seed i))
    (fun _ => shippedData nk sortAges sortNk setOrder) (fun i => cannon_physical (seed i))
    (fun i => cannon_data _ _ _ _ hs (seed i))
    (fun i => (cannon_runnable nk sortAges sortNk setOrder (seed i)).nodup) (fun _ => rfl) (fun _ => rfl) 0.1
    (by norm_num) (fun i => cannon_erosion (seed i)) time htne (fun _ => ht) out hout 1 "Shoemaker"
    (fun _ => rfl) ej hej
  exact ⟨ys, ice, h5, h6⟩

end MoonPIES
