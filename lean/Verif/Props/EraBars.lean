import Verif.Lemmas.EraBars
import Verif.Props.IceByModule

/-!
# C90: bars by era
-/

namespace MoonPIES

open Spec

/-- **C90** eras: a time gets the label of the era it lies in, counting the older end; every time
of the last 4.26 Gyr lies in exactly one era. -/
theorem C90_eras (x : ℝ) :
    (∀ l, pdCut eraBins eraLabels.reverse x = some l ↔
      ∃ lo hi, (l, lo, hi) ∈ eraTable ∧ lo < x ∧ x ≤ hi) ∧
    (0 < x → x ≤ 4.26e9 → ∃ l, pdCut eraBins eraLabels.reverse x = some l) := by
  refine ⟨fun l => eraCut x l, fun h0 h1 => ?_⟩
  have key : ∀ l lo hi, (l, lo, hi) ∈ eraTable → lo < x → x ≤ hi →
      ∃ l, pdCut eraBins eraLabels.reverse x = some l :=
    fun l lo hi h a b => ⟨l, (eraCut x l).2 ⟨lo, hi, h, a, b⟩⟩
  by_cases h2 : x ≤ 1.1e9
  · exact key "Cop." _ _ (by simp [eraTable]) h0 h2
  by_cases h3 : x ≤ 3.2e9
  · exact key "Era." 1.1e9 3.2e9 (by simp [eraTable]) (by linarith) h3
  by_cases h4 : x ≤ 3.83e9
  · exact key "Imb." 3.2e9 3.83e9 (by simp [eraTable]) (by linarith) h4
  by_cases h5 : x ≤ 3.97e9
  · exact key "Nec." 3.83e9 3.97e9 (by simp [eraTable]) (by linarith) h5
  · exact key "Pre-Nec." 3.97e9 4.26e9 (by simp [eraTable]) (by linarith) h1

/-- **C90** bars: there is a bar for every column of ice and every era with model times; its height
is the mean over the times of the era, and its error bar spans the values there: it reaches exactly
the largest, and exactly the smallest or a fixed 1e-9 below the mean. -/
theorem C90_bars (t : ModuleTable) (i j : Nat) (k : FigCol) (l : String) (lo hi : ℝ)
    (hi' : figOrder[i]? = some k) (hk : k ≠ .gardening ∧ k ≠ .bsed)
    (hj : eraTable[j]? = some (l, lo, hi)) :
    (between (t .time) (figCol t k) lo hi = [] → figBar t i j = none) ∧
    (between (t .time) (figCol t k) lo hi ≠ [] → ∃ b, figBar t i j = some b ∧
      b.height = (between (t .time) (figCol t k) lo hi).sum /
        (between (t .time) (figCol t k) lo hi).length ∧
      (∀ y ∈ between (t .time) (figCol t k) lo hi, b.low ≤ y ∧ y ≤ b.high) ∧
      b.low ≤ b.height ∧ b.height ≤ b.high ∧ b.high ∈ between (t .time) (figCol t k) lo hi ∧
      (b.low ∈ between (t .time) (figCol t k) lo hi ∨ b.low = b.height - 1e-9)) := by
  obtain ⟨g1, g2⟩ := eraTable_get hj
  obtain ⟨s1, s2⟩ := eraStat_spec (t .time) (figCol t k) g2
  have hbar : figBar t i j = (eraStat (t .time) (figCol t k) l).bind
      (fun s => some (eraBar eraLabels.length i j s)) := by
    unfold figBar
    simp only [hi', g1, bind, Option.bind_some]
    rw [if_neg (by rintro (h | h); exacts [hk.1 h, hk.2 h])]
  constructor
  · intro h
    rw [hbar, s1 h]
    rfl
  · intro h
    obtain ⟨s, e1, e2, e3, e4, e5⟩ := s2 h
    have hm := mean_between _ h s.min s.max e3
    rw [← e2] at hm
    refine ⟨eraBar eraLabels.length i j s, by rw [hbar, e1]; rfl, e2, ?_, ?_, ?_, ?_, ?_⟩
    · intro y hy
      obtain ⟨h1, h2⟩ := e3 y hy
      simp only [eraBar]
      have := le_max_left (s.mean - s.min) (1e-9 : ℝ)
      constructor <;> linarith
    · simp only [eraBar]
      have := le_max_right (s.mean - s.min) (1e-9 : ℝ)
      have h0 : (0 : ℝ) ≤ 1e-9 := by norm_num
      linarith
    · simp only [eraBar]
      linarith [hm.2]
    · simp only [eraBar]
      rw [add_sub_cancel]
      exact e5
    · simp only [eraBar]
      rcases max_choice (s.mean - s.min) (1e-9 : ℝ) with h | h
      · left; rw [h, sub_sub_cancel]; exact e4
      · right; rw [h]

/-- **C90** layout: the bars of an era stand side by side, in the order of the columns, between the
dividers of the era, half a unit left and right of its tick. -/
theorem C90_layout (t : ModuleTable) (i j : Nat) (b : EraBar) (h : figBar t i j = some b) :
    (j : ℝ) - 1 / 2 ≤ b.left ∧ b.left < b.right ∧ b.right ≤ (j : ℝ) + 1 / 2 ∧
    ∀ i' b', i < i' → figBar t i' j = some b' → b.right ≤ b'.left := by
  have inv : ∀ i b, figBar t i j = some b → i < 5 ∧ ∃ s, b = eraBar eraLabels.length i j s := by
    intro i b h
    unfold figBar at h
    simp only [bind, Option.bind_eq_some_iff] at h
    obtain ⟨k, h1, h⟩ := h
    split at h
    · cases h
    · rename_i hk
      obtain ⟨l, h2, h⟩ := Option.bind_eq_some_iff.1 h
      obtain ⟨s, h3, h⟩ := Option.bind_eq_some_iff.1 h
      cases h
      refine ⟨?_, s, rfl⟩
      by_contra hc
      match i, hc, h1 with
      | 5, _, h1 => cases h1; exact hk (Or.inl rfl)
      | 6, _, h1 => cases h1; exact hk (Or.inr rfl)
      | n + 7, _, h1 => simp [figOrder] at h1
  obtain ⟨hi, s, rfl⟩ := inv i b h
  have hn : eraLabels.length = 5 := rfl
  have hi' : (i : ℝ) ≤ 4 := by exact_mod_cast Nat.le_of_lt_succ hi
  have h0 : (0 : ℝ) ≤ i := Nat.cast_nonneg i
  refine ⟨?_, ?_, ?_, ?_⟩
  · simp only [eraBar, hn]; push_cast; linarith
  · simp only [eraBar, hn]; push_cast; linarith
  · simp only [eraBar, hn]; push_cast; linarith
  · intro i' b' hlt h'
    obtain ⟨-, s', rfl⟩ := inv i' b' h'
    have : (i : ℝ) + 1 ≤ i' := by exact_mod_cast hlt
    simp only [eraBar, hn]; push_cast; linarith

/-- **C90** total: the bar of all ice is as high as those of impactors, basins, volcanoes and solar
wind together. -/
theorem C90_total (t : ModuleTable) (n j : Nat) (hlen : ∀ k, (t k).length = n)
    (b : EraBar) (hb : figBar t 0 j = some b) :
    ∃ b1 b2 b3 b4, figBar t 1 j = some b1 ∧ figBar t 2 j = some b2 ∧ figBar t 3 j = some b3 ∧
      figBar t 4 j = some b4 ∧ b.height = b1.height + b2.height + b3.height + b4.height := by
  obtain ⟨l, hl⟩ : ∃ l, eraLabels[j]? = some l := by
    cases e : eraLabels[j]? with
    | some l => exact ⟨l, rfl⟩
    | none =>
      unfold figBar at hb
      simp [figOrder, e] at hb
  obtain ⟨lo, hi, hj⟩ : ∃ lo hi, eraTable[j]? = some (l, lo, hi) := by
    have : eraTable.map (·.1) = eraLabels := rfl
    rw [← this, List.getElem?_map] at hl
    cases e : eraTable[j]? with
    | none => rw [e] at hl; cases hl
    | some p =>
      rw [e] at hl
      cases hl
      exact ⟨p.2.1, p.2.2, rfl⟩
  have lens : ∀ k, (figCol t k).length = (t .time).length := by
    intro k
    rw [hlen .time]
    cases k
    exacts [(sumCols_getD t _ _ 0 hlen).1, (sumCols_getD t _ _ 0 hlen).1, hlen _, hlen _, hlen _,
      hlen _, hlen _]
  obtain ⟨idx, hidx⟩ : ∃ idx, idx = (List.range (t .time).length).filter (fun i =>
      decide (lo < (t .time).getD i 0 ∧ (t .time).getD i 0 ≤ hi)) := ⟨_, rfl⟩
  have hbt : ∀ k, between (t .time) (figCol t k) lo hi = idx.map (fun i => (figCol t k).getD i 0) := by
    intro k
    rw [hidx]
    exact between_eq _ lo hi _ (lens k)
  have hne : idx ≠ [] := by
    intro h0
    have := (C90_bars t 0 j .total l lo hi rfl (by decide) hj).1 (by rw [hbt, h0]; rfl)
    rw [hb] at this
    cases this
  have bars : ∀ i k, figOrder[i]? = some k → k ≠ .gardening ∧ k ≠ .bsed →
      ∃ b, figBar t i j = some b ∧
        b.height = (idx.map (fun i => (figCol t k).getD i 0)).sum / idx.length := by
    intro i k h1 h2
    obtain ⟨b, e1, e2, -⟩ := (C90_bars t i j k l lo hi h1 h2 hj).2 (by
      rw [hbt]; intro h0; exact hne (List.map_eq_nil_iff.1 h0))
    refine ⟨b, e1, ?_⟩
    rw [e2, hbt, List.length_map]
  obtain ⟨b0, c0, d0⟩ := bars 0 .total rfl (by decide)
  obtain ⟨b1, c1, d1⟩ := bars 1 .impactor rfl (by decide)
  obtain ⟨b2, c2, d2⟩ := bars 2 .basin rfl (by decide)
  obtain ⟨b3, c3, d3⟩ := bars 3 .volcanic rfl (by decide)
  obtain ⟨b4, c4, d4⟩ := bars 4 .solar rfl (by decide)
  rw [hb] at c0
  cases c0
  refine ⟨b1, b2, b3, b4, c1, c2, c3, c4, ?_⟩
  rw [d0, d1, d2, d3, d4, ← add_div, ← add_div, ← add_div, ← List.sum_map_add, ← List.sum_map_add,
    ← List.sum_map_add]
  congr 2
  apply List.map_congr_left
  intro i _
  change (sumCols t (impactorKeys ++ otherIceKeys)).getD i 0 =
    (sumCols t impactorKeys).getD i 0 + (t .basin).getD i 0 + (t .volcanic).getD i 0 +
      (t .solar).getD i 0
  rw [(sumCols_getD t _ n i hlen).2, (sumCols_getD t _ n i hlen).2, List.map_append, List.sum_append]
  simp only [otherIceKeys, List.map_cons, List.map_nil, List.sum_cons, List.sum_nil]
  ring

/-- **C90** (part of the claim that the shading shows the largest losses): over an era with model
times it reaches from divider to divider, and up to the mean loss.  Missing: that it reaches the
largest, as the legend ("Max") says, which is false. -/
theorem C90_shade_partial (t : ModuleTable) (k : FigCol) (j : Nat) (l : String) (lo hi : ℝ)
    (hj : eraTable[j]? = some (l, lo, hi))
    (hne : between (t .time) (figCol t k) lo hi ≠ []) :
    figShade t k j = some ((j : ℝ) - 1 / 2, (j : ℝ) + 1 / 2,
      (between (t .time) (figCol t k) lo hi).sum /
        (between (t .time) (figCol t k) lo hi).length) := by
  obtain ⟨g1, g2⟩ := eraTable_get hj
  obtain ⟨s, e1, e2, -⟩ := (eraStat_spec (t .time) (figCol t k) g2).2 hne
  unfold figShade
  simp only [g1, e1, bind, Option.bind_some, e2, Option.some.injEq, Prod.mk.injEq, and_true]
  constructor <;> ring

/-- **C90 refuted**: with the default configuration and the shipped data, the shading called
"Max Gardening depth" stays below the gardening depth 4.25 Gyr ago. -/
theorem C90_refuted : ¬ ∀ (σ : Type) (g : Gen σ), LawfulGen g → ∀ (c : RunCfg) (d : RunData),
    PhysicalCfg c → PhysicalData c d → Runnable c d → ∀ draw seeds t,
    astCometSeeds g c d draw seeds = .ok t → ∀ (k : FigCol) (j : Nat) l lo hi a b h,
      k = .gardening ∨ k = .bsed → eraTable[j]? = some (l, lo, hi) →
      figShade t k j = some (a, b, h) →
      ∀ y ∈ between (t .time) (figCol t k) lo hi, y ≤ h := by
  intro H
  obtain ⟨d, hd⟩ : ∃ t, t = shippedData [] sortDesc id id := ⟨_, rfl⟩
  have pd : PhysicalData (RunCfg.default 1) d := hd ▸ default_data [] sortDesc id id sortDesc_spec 1
  have pr : Runnable (RunCfg.default 1) d := hd ▸ default_runnable [] sortDesc id id 1
  have pc := default_physical 1
  obtain ⟨t, ht⟩ := C89_returns constGen constGen_lawful _ d pc pd pr (fun _ => 1) [1] (by simp)
  obtain ⟨time, volc, solar, runs, h1, -, -, -, h2, h3, -⟩ := C89_modules_partial constGen
    constGen_lawful _ d pc pd pr (fun _ => 1) [1] t ht
  obtain ⟨time', e1, e2⟩ := default_time 1
  rw [h1] at e1
  cases e1
  obtain ⟨f, hf⟩ : ∃ f, f = overturnCostello (RunCfg.default 1).overturn := ⟨_, rfl⟩
  have h3' : figCol t .gardening = time.map f := by rw [h3, hf]; rfl
  have hgrid : ∀ i : Nat, i < 425 → time[i]? = some ((4.25e9 : ℝ) - i * 10e6) := by
    intro i hi
    rw [e2]
    unfold uniformGrid
    rw [List.getElem?_map, List.getElem?_range hi]
    rfl
  have hmem : ∀ i : Nat, i < 28 → f ((4.25e9 : ℝ) - i * 10e6) ∈
      between (t .time) (figCol t .gardening) 3.97e9 4.26e9 := by
    intro i hi
    rw [h2, h3', mem_between]
    have : (i : ℝ) ≤ 27 := by exact_mod_cast Nat.le_of_lt_succ hi
    have h0 : (0 : ℝ) ≤ i := Nat.cast_nonneg i
    refine ⟨i, _, hgrid i (by omega), ?_, ?_, ?_⟩
    · rw [List.getElem?_map, hgrid i (by omega)]; rfl
    · norm_num; linarith
    · norm_num; linarith
  have hval : ∀ x : ℝ, 3e9 < x → f x = (RunCfg.default 1).overturn_depth_present *
      ((RunCfg.default 1).overturn_ancient_slope * (x - 3e9) + 1) := by
    intro x hx
    rw [hf]
    unfold overturnCostello
    simp only []
    rw [if_pos (by simpa [RunCfg.default, RunCfg.overturn] using hx)]
    simp [RunCfg.default, RunCfg.overturn]
  have hmono : ∀ x y : ℝ, 3e9 < x → x < y → f x < f y := by
    intro x y hx hxy
    rw [hval x hx, hval y (hx.trans hxy)]
    have p1 : 0 < (RunCfg.default 1).overturn_depth_present := by
      simp only [RunCfg.default]; norm_num
    have p2 : 0 < (RunCfg.default 1).overturn_ancient_slope := by
      simp only [RunCfg.default]; norm_num
    apply mul_lt_mul_of_pos_left _ p1
    have := mul_lt_mul_of_pos_left (show x - 3e9 < y - 3e9 by linarith) p2
    linarith
  have hne := List.ne_nil_of_mem (hmem 0 (by norm_num))
  have hs := C90_shade_partial t .gardening 0 "Pre-Nec." 3.97e9 4.26e9 rfl hne
  have hle := H Unit constGen constGen_lawful _ d pc pd pr _ _ t ht .gardening 0 "Pre-Nec." 3.97e9
    4.26e9 _ _ _ (Or.inl rfl) rfl hs _ (hmem 0 (by norm_num))
  refine absurd hle (not_le.2 (mean_lt _ _ _ _ ?_ (hmem 1 (by norm_num)) ?_ rfl))
  · intro x hx
    rw [h2, h3', mem_between] at hx
    obtain ⟨i, s, q1, q2, q3, q4⟩ := hx
    rw [List.getElem?_map, q1] at q2
    cases q2
    have : s ≤ 4.25e9 := by
      rw [e2] at q1
      obtain ⟨m, -, rfl⟩ := List.mem_map.1 (List.mem_of_getElem? q1)
      change (4.25e9 : ℝ) - m * 10e6 ≤ 4.25e9
      have : (0 : ℝ) ≤ m := Nat.cast_nonneg m
      linarith
    rcases this.lt_or_eq with h | h
    · exact (hmono s _ (by linarith) (by simpa using h)).le
    · rw [h]; simp
  · exact hmono _ _ (by norm_num) (by norm_num)

/-- C90 speaks of existing bars: a table with two times, one of them in the first era. -/
example : ∃ b, figBar (fun k => if k = .time then [4e9, 1e9] else [1, 2]) 0 0 = some b ∧
    b.height = 8 := by
  have hb : between [4e9, 1e9] (figCol (fun k => if k = .time then [4e9, 1e9] else [1, 2]) .total)
      3.97e9 4.26e9 = [8] := by
    simp only [figCol, sumCols, impactorKeys, otherIceKeys, between, List.map_cons,
      List.map_nil, List.cons_append, List.nil_append, List.foldl_cons, List.foldl_nil, addArr,
      List.zipWith_cons_cons, List.zipWith_nil_left, List.zip_cons_cons, List.zip_nil_left,
      reduceCtorEq, if_true, if_false]
    norm_num [List.filter_cons]
  obtain ⟨b, h1, h2, -⟩ := (C90_bars (fun k => if k = .time then [4e9, 1e9] else [1, 2]) 0 0 .total
    "Pre-Nec." 3.97e9 4.26e9 rfl (by decide) rfl).2 (by
      simp only [if_true]; rw [hb]; simp)
  refine ⟨b, h1, ?_⟩
  rw [h2]
  simp only [if_true]
  rw [hb]
  simp

end MoonPIES
