import Verif.Props.Records
import Verif.Props.Frame
import Mathlib.Analysis.Convex.Function
import Mathlib.Data.Real.Basic

/-!
# C163: how the ice kept depends on the rate of erosion
-/

namespace MoonPIES

open Spec Set

/-- A greatest balance, as a function of the depth of erosion. -/
theorem balance_rate {r : List (ℝ × ℝ)} {shield : ℝ} {k : Nat} {f : ℝ → ℝ}
    (hf : ∀ e, 0 ≤ e → IsGreatest (balancesFrom shield e r k) (f e)) :
    ConvexOn ℝ (Ici 0) f ∧ AntitoneOn f (Ici 0) ∧
    (∀ e e', 0 ≤ e → e ≤ e' →
      f e - f e' ≤ (e' - e) * (((r.drop k).filter fun p => decide (p.2 ≤ shield)).length : ℝ)) := by
  refine ⟨⟨convex_Ici 0, fun x hx y hy a b ha hb hab => ?_⟩, fun x hx y hy hxy => ?_, fun e e' h0 hle => ?_⟩
  · have hz : (0 : ℝ) ≤ a • x + b • y := by
      have : (0 : ℝ) ≤ x := hx
      have : (0 : ℝ) ≤ y := hy
      simp only [smul_eq_mul]
      positivity
    obtain ⟨j, h1, h2, h3⟩ := (hf _ hz).1
    have gx := (hf x hx).2 ⟨j, h1, h2, rfl⟩
    have gy := (hf y hy).2 ⟨j, h1, h2, rfl⟩
    rw [h3]
    simp only [balance, smul_eq_mul] at gx gy ⊢
    have ex := mul_le_mul_of_nonneg_left gx ha
    have ey := mul_le_mul_of_nonneg_left gy hb
    refine le_trans (le_of_eq ?_) (add_le_add ex ey)
    obtain ⟨Y, hY⟩ : ∃ Y, Y = ((r.drop j).map Prod.fst).sum := ⟨_, rfl⟩
    rw [← hY]
    have : Y = (a + b) * Y := by rw [hab, one_mul]
    conv_lhs => rw [this]
    ring
  · obtain ⟨j, h1, h2, h3⟩ := (hf y hy).1
    refine le_trans ?_ ((hf x hx).2 ⟨j, h1, h2, rfl⟩)
    rw [h3]
    unfold balance
    have := mul_le_mul_of_nonneg_right hxy
      (Nat.cast_nonneg (α := ℝ) ((r.drop j).filter fun p => decide (p.2 ≤ shield)).length)
    linarith
  · obtain ⟨j, h1, h2, h3⟩ := (hf e h0).1
    have h4 := (hf e' (h0.trans hle)).2 ⟨j, h1, h2, rfl⟩
    rw [h3]
    unfold balance at h4 ⊢
    have hn : (((r.drop j).filter fun p => decide (p.2 ≤ shield)).length : ℝ) ≤
        (((r.drop k).filter fun p => decide (p.2 ≤ shield)).length : ℝ) := by
      have : r.drop j = (r.drop k).drop (j - k) := by rw [List.drop_drop, Nat.add_sub_cancel' h1]
      rw [this]
      exact_mod_cast ((List.drop_sublist (j - k) (r.drop k)).filter _).length_le
    have := mul_le_mul_of_nonneg_left hn (sub_nonneg.2 hle)
    linarith

variable {σ : Type}

/-- **C163** Runs with the erosion of Cannon et al. and no ballistic sedimentation that differ only in the rate of
erosion: in every cold trap, the ice left from each timestep on is a convex and decreasing function of the rate.  It
falls by at most the additional depth times the number of timesteps that are not shielded.  At rate zero all ice is
left, and none is left exactly if no period brought more than the depth for each such timestep. -/
theorem C163_run (g : Gen σ) (hg : LawfulGen g) (c : RunCfg) (d : RunData) (hc : PhysicalCfg c)
    (hd : PhysicalData c d) (hnd : c.coldtrap_names.Nodup)
    (hcost : c.impact_gardening_costello = false) (hbs : c.ballistic_sed = false)
    (time : List ℝ) (htne : time ≠ []) (htime : getTimeArray c.timestart c.timeend c.timestep = .ok time)
    (out : ℝ → CsvOut) (hrun : ∀ e, 0 ≤ e → runMain g (withRate c e) d = .ok (out e)) (j : Nat) (name : String)
    (hj : c.coldtrap_names[j]? = some name) :
    ∃ (df : CraterTable) (s s' : σ) (delivered : List (List ℝ)) (ys ej : List ℝ) (ice : ℝ → List ℝ),
      craterBasinList g c d (g.init c.seed) = .ok (df, s) ∧
      iceCols g c d df time s = .ok (delivered, s') ∧ ys.length = time.length ∧ ej.length = time.length ∧
      (∀ (k : Nat) row, delivered[k]? = some row → ys[k]? = row[j]? ∧ row[j]?.isSome = true) ∧
      (∀ e, 0 ≤ e → (out e).ice.get name = .ok (ice e) ∧ (out e).ej.get name = .ok ej) ∧
      ∀ k ≤ time.length, ConvexOn ℝ (Ici 0) (fun e => ((ice e).drop k).sum) ∧
        AntitoneOn (fun e => ((ice e).drop k).sum) (Ici 0) ∧
        ((ice 0).drop k).sum = (ys.drop k).sum ∧
        (∀ e e', 0 ≤ e → e ≤ e' → ((ice e).drop k).sum - ((ice e').drop k).sum ≤
          (e' - e) * (c.timestep / 1e7) * (((ej.drop k).filter fun x => decide (x ≤ 0.4)).length : ℝ)) ∧
        ∀ e, 0 ≤ e → (((ice e).drop k).sum = 0 ↔ ∀ i, k ≤ i → i ≤ time.length → (ys.drop i).sum ≤
          e * (c.timestep / 1e7) * (((ej.drop i).filter fun x => decide (x ≤ 0.4)).length : ℝ)) := by
  have ht7 : 0 ≤ c.timestep / 1e7 := div_nonneg hc.ts.le (by norm_num)
  have hce : ∀ e, PhysicalCfg (withRate c e) := fun e => { hc with }
  have hde : ∀ e, PhysicalData (withRate c e) d := fun e => { hd with }
  have main := fun (e : ℝ) (he : 0 ≤ e) => C162_run g hg (withRate c e) d (hce e) (hde e) hnd hcost hbs
    (e * (c.timestep / 1e7)) (mul_nonneg he ht7) rfl time htne htime (out e) (hrun e he) j name hj
  obtain ⟨df, s, s', del, ys, ice0, ej, a1, a2, a3, a4, a5, a6, a7, a8, a9, -⟩ := main 0 le_rfl
  rw [iceCols_rate] at a2
  have hmem : name ∈ c.coldtrap_names := List.mem_of_getElem? hj
  have all : ∀ e, ∃ ice : List ℝ, 0 ≤ e → (out e).ice.get name = .ok ice ∧ (out e).ej.get name = .ok ej ∧
      ∀ k ≤ time.length, IsGreatest (balancesFrom 0.4 (e * (c.timestep / 1e7)) (ys.zip ej) k) (ice.drop k).sum := by
    intro e
    by_cases he : 0 ≤ e
    · obtain ⟨df', t, t', del', ys', ice, ej', b1, b2, b3, b4, b5, b6, b7, b8, b9, -⟩ := main e he
      have hdf : (Except.ok (df', t) : Except PyErr _) = .ok (df, s) := b1.symm.trans a1
      injection hdf with hdf
      injection hdf with hdf hs
      subst hdf hs
      rw [iceCols_rate, a2] at b2
      injection b2 with b2
      injection b2 with b2 b2'
      subst b2 b2'
      have hys : ys' = ys := by
        have hdl : del.length = time.length := by
          have hrad := craterBasinList_rad g hd _ _ _ a1
          obtain ⟨rows, v, w1, w2, -⟩ := iceCols_ok g hg hc hd df' hrad time htne t
          rw [a2] at w1
          injection w1 with w1
          injection w1 with w1 _
          rw [w1, w2]
        apply List.ext_getElem?
        intro i
        rcases Nat.lt_or_ge i del.length with hi | hi
        · rw [(b5 i _ (List.getElem?_eq_getElem hi)).1, (a5 i _ (List.getElem?_eq_getElem hi)).1]
        · rw [List.getElem?_eq_none (by omega), List.getElem?_eq_none (by omega)]
      subst hys
      obtain ⟨ej'', e1, e2⟩ := C121_ejecta g hg (withRate c 0) (withRate c e) d d
        ⟨rfl, rfl, rfl, rfl, rfl, rfl, rfl, rfl, rfl, rfl, rfl, rfl, rfl⟩ rfl rfl (hce 0) (hce e) (hde 0) (hde e) hnd
        (out 0) (out e) (hrun 0 le_rfl) (hrun e he) name hmem
      rw [a7] at e1
      injection e1 with e1
      rw [b7] at e2
      injection e2 with e2
      subst e1
      rw [e2] at b7 b9
      exact ⟨ice, fun _ => ⟨b6, b7, b9⟩⟩
    · exact ⟨[], fun h => absurd h he⟩
  choose ice hice using all
  refine ⟨df, s, s', del, ys, ej, ice, a1, a2, a3, a4, a5, fun e he => ⟨(hice e he).1, (hice e he).2.1⟩, ?_⟩
  intro k hk
  have hf : ∀ e, 0 ≤ e → IsGreatest (balancesFrom 0.4 (e * (c.timestep / 1e7)) (ys.zip ej) k) ((ice e).drop k).sum :=
    fun e he => (hice e he).2.2 k hk
  have hz : (ys.zip ej).length = time.length := by rw [List.length_zip]; omega
  have hcnt : ∀ i, ((((ys.zip ej).drop i).filter fun p => decide (p.2 ≤ (0.4 : ℝ))).length : ℝ) =
      (((ej.drop i).filter fun x => decide (x ≤ 0.4)).length : ℝ) := by
    intro i
    have e1 : ((ys.zip ej).drop i).map Prod.snd = ej.drop i := by
      rw [List.map_drop, List.map_snd_zip (by omega)]
    rw [← e1, List.filter_map, List.length_map]
    rfl
  have hsum : ∀ i, (((ys.zip ej).drop i).map Prod.fst).sum = (ys.drop i).sum := by
    intro i
    rw [List.map_drop, List.map_fst_zip (by omega)]
  have hpos : 0 < c.timestep / 1e7 := div_pos hc.ts (by norm_num)
  -- the same in terms of the depth
  have hf' : ∀ x, 0 ≤ x → IsGreatest (balancesFrom 0.4 x (ys.zip ej) k)
      ((ice (x / (c.timestep / 1e7))).drop k).sum := by
    intro x hx
    have := hf (x / (c.timestep / 1e7)) (div_nonneg hx hpos.le)
    rwa [div_mul_cancel₀ _ hpos.ne'] at this
  obtain ⟨r1, r2, r3⟩ := balance_rate hf'
  have back : ∀ e, e * (c.timestep / 1e7) / (c.timestep / 1e7) = e := fun e => mul_div_cancel_right₀ e hpos.ne'
  refine ⟨⟨convex_Ici 0, fun x hx y hy a b ha hb hab => ?_⟩, fun x hx y hy hxy => ?_, ?_, fun e e' h0 hle => ?_,
    fun e he => ?_⟩
  · have := r1.2 (x := x * (c.timestep / 1e7)) (mul_nonneg hx hpos.le) (y := y * (c.timestep / 1e7))
      (mul_nonneg hy hpos.le) ha hb hab
    simp only [smul_eq_mul] at this ⊢
    rw [back, back, show a * (x * (c.timestep / 1e7)) + b * (y * (c.timestep / 1e7)) =
      (a * x + b * y) * (c.timestep / 1e7) by ring, back] at this
    exact this
  · have := r2 (a := x * (c.timestep / 1e7)) (mul_nonneg hx hpos.le) (b := y * (c.timestep / 1e7))
      (mul_nonneg hy hpos.le) (mul_le_mul_of_nonneg_right hxy hpos.le)
    simp only [back] at this
    exact this
  · have h0 := hf 0 le_rfl
    have nn : ∀ y ∈ ys, 0 ≤ y := by
      have hrad := craterBasinList_rad g hd _ _ _ a1
      obtain ⟨rows, v, w1, w2, w3⟩ := iceCols_ok g hg hc hd df hrad time htne s
      rw [a2] at w1
      injection w1 with w1
      injection w1 with w1 _
      intro y hy
      obtain ⟨i, hi⟩ := List.mem_iff_getElem?.1 hy
      have hil : i < del.length := by rw [w1, w2, ← a3]; exact (List.getElem?_eq_some_iff.1 hi).1
      have g1 := (a5 i _ (List.getElem?_eq_getElem hil)).1
      rw [hi] at g1
      exact (w3 _ (by rw [← w1]; exact List.getElem_mem hil)).2 _ (List.mem_of_getElem? g1.symm)
    refine le_antisymm ?_ ?_
    · obtain ⟨i, i1, i2, i3⟩ := h0.1
      rw [i3, balance, hsum, zero_mul, zero_mul, sub_zero]
      have : ys.drop i = (ys.drop k).drop (i - k) := by rw [List.drop_drop, Nat.add_sub_cancel' i1]
      rw [this]
      exact (List.drop_sublist _ _).sum_le_sum fun x hx => nn x (List.mem_of_mem_drop hx)
    · have := h0.2 ⟨k, le_rfl, by omega, rfl⟩
      rwa [balance, hsum, zero_mul, zero_mul, sub_zero] at this
  · have := r3 (e * (c.timestep / 1e7)) (e' * (c.timestep / 1e7)) (mul_nonneg h0 hpos.le)
      (mul_le_mul_of_nonneg_right hle hpos.le)
    rw [back, back, hcnt] at this
    refine this.trans (le_of_eq ?_)
    ring
  · have hb := hf e he
    constructor
    · intro h i hi hi'
      have := hb.2 ⟨i, hi, by omega, rfl⟩
      rw [h, balance, hsum, hcnt] at this
      linarith
    · intro h
      obtain ⟨i, i1, i2, i3⟩ := hb.1
      refine le_antisymm ?_ (hb.2 ⟨time.length, hk, by omega, ?_⟩)
      · rw [i3, balance, hsum, hcnt]
        have := h i i1 (by omega)
        linarith
      · rw [List.drop_of_length_le (by omega), balance_nil]

/-- C163 applies to the runs that reproduce Cannon et al. (2020) with the shipped files, with any seed. -/
example (nk : List (ℝ × ℝ)) (sortAges : CraterTable → CraterTable) (sortNk : List (ℝ × ℝ) → List (ℝ × ℝ))
    (setOrder : List (List Char) → List (List Char)) (g : Gen σ) (hg : LawfulGen g) (hs : Spec.SortDesc sortAges)
    (seed : Int) : ∃ (out : ℝ → CsvOut) (ice : ℝ → List ℝ),
      (∀ e, runMain g (withRate (RunCfg.cannon seed) e) (shippedData nk sortAges sortNk setOrder) = .ok (out e)) ∧
      (∀ e, 0 ≤ e → (out e).ice.get "Shoemaker" = .ok (ice e)) ∧ ConvexOn ℝ (Ici 0) fun e => (ice e).sum := by
  have hr : ∀ e, ∃ out, runMain g (withRate (RunCfg.cannon seed) e) (shippedData nk sortAges sortNk setOrder) =
      .ok out := fun e =>
    C72_returns g hg _ _ { cannon_physical seed with } { cannon_data nk sortAges sortNk setOrder hs seed with }
      { cannon_runnable nk sortAges sortNk setOrder seed with }
  choose out hout using hr
  obtain ⟨time, ht, htl⟩ : ∃ time : List ℝ, getTimeArray (4.25e9 : ℝ) 0 10e6 = .ok time ∧ time.length = 425 :=
    ⟨_, C19_uniform_partial (4.25e9 : ℝ) 10e6 425 (by norm_num) (by norm_num) (by norm_num), by simp [uniformGrid]⟩
  obtain ⟨_, _, _, _, _, _, ice, -, -, -, -, -, h6, h7⟩ := C163_run g hg (RunCfg.cannon seed) _ (cannon_physical seed)
    (cannon_data nk sortAges sortNk setOrder hs seed) (cannon_runnable nk sortAges sortNk setOrder seed).nodup rfl rfl
    time (by intro h; simp [h] at htl) ht out (fun e _ => hout e) 1 "Shoemaker" rfl
  exact ⟨out, ice, hout, fun e he => (h6 e he).1, by simpa using (h7 0 (by omega)).1⟩

end MoonPIES
