import Verif.Lemmas.Quantile

/-!
# C100: boxes, arrows and violins over runs
-/

namespace MoonPIES

open Spec

variable {K : Type} [Field K] [LinearOrder K] [FloorRing K] [IsStrictOrderedRing K]

/-- **C100** quantiles: the quantile of at least one value lies on the straight line through the
ranked values, grows with the fraction, and splits the values: more than `q (n - 1)` are not above
it and more than `(1 - q)(n - 1)` not below.  No values have no quantile. -/
theorem C100_quantile (l : List K) :
    (∀ q, l = [] → quantile q l = none) ∧
    (l ≠ [] → ∀ q, 0 ≤ q → q ≤ 1 → ∃ v, quantile q l = some v ∧ Quantile l q v ∧
      q * ((l.length : K) - 1) < (l.countP (fun x => decide (x ≤ v)) : Nat) ∧
      (1 - q) * ((l.length : K) - 1) < (l.countP (fun x => decide (v ≤ x)) : Nat) ∧
      ∀ p u, 0 ≤ p → p ≤ q → quantile p l = some u → u ≤ v) := by
  constructor
  · intro q h
    subst h
    simp [quantile]
  · intro hl q h0 h1
    obtain ⟨v, hv, hs⟩ := quantile_spec q h0 h1 l hl
    refine ⟨v, hv, hs, quantile_count_le hs, quantile_count_ge hs, ?_⟩
    intro p u p0 pq hu
    obtain ⟨u', hu', hs'⟩ := quantile_spec p p0 (pq.trans h1) l hl
    rw [hu] at hu'
    cases hu'
    exact quantile_mono hs' hs pq

theorem whiskerHigh_spec (x : List K) (hi q3 : K) :
    q3 ≤ whiskerHigh x hi q3 ∧ (whiskerHigh x hi q3 = q3 ∨ whiskerHigh x hi q3 ∈ x ∧
      whiskerHigh x hi q3 ≤ hi) ∧ ∀ y ∈ x, y ≤ hi → y ≤ whiskerHigh x hi q3 := by
  unfold whiskerHigh
  have hm : ∀ y, y ∈ x.filter (fun y => decide (y ≤ hi)) ↔ y ∈ x ∧ y ≤ hi := by
    intro y; simp [List.mem_filter]
  cases hf : x.filter (fun y => decide (y ≤ hi)) with
  | nil =>
    refine ⟨le_refl _, Or.inl rfl, fun y h1 h2 => ?_⟩
    have := (hm y).2 ⟨h1, h2⟩
    rw [hf] at this
    cases this
  | cons z l =>
    obtain ⟨e1, e2⟩ := foldl_max_spec l z
    have e3 := (hm _).1 (by rw [hf]; exact e1)
    simp only []
    split
    · next h =>
      refine ⟨le_refl _, Or.inl rfl, fun y h1 h2 => ?_⟩
      exact (e2 y (by rw [← hf]; exact (hm y).2 ⟨h1, h2⟩)).trans h.le
    · next h =>
      exact ⟨not_lt.1 h, Or.inr e3, fun y h1 h2 => e2 y (by rw [← hf]; exact (hm y).2 ⟨h1, h2⟩)⟩

theorem whiskerLow_spec (x : List K) (lo q1 : K) :
    whiskerLow x lo q1 ≤ q1 ∧ (whiskerLow x lo q1 = q1 ∨ whiskerLow x lo q1 ∈ x ∧
      lo ≤ whiskerLow x lo q1) ∧ ∀ y ∈ x, lo ≤ y → whiskerLow x lo q1 ≤ y := by
  unfold whiskerLow
  have hm : ∀ y, y ∈ x.filter (fun y => decide (lo ≤ y)) ↔ y ∈ x ∧ lo ≤ y := by
    intro y; simp [List.mem_filter]
  cases hf : x.filter (fun y => decide (lo ≤ y)) with
  | nil =>
    refine ⟨le_refl _, Or.inl rfl, fun y h1 h2 => ?_⟩
    have := (hm y).2 ⟨h1, h2⟩
    rw [hf] at this
    cases this
  | cons z l =>
    obtain ⟨e1, e2⟩ := foldl_min_spec l z
    have e3 := (hm _).1 (by rw [hf]; exact e1)
    simp only []
    split
    · next h =>
      refine ⟨le_refl _, Or.inl rfl, fun y h1 h2 => ?_⟩
      exact h.le.trans (e2 y (by rw [← hf]; exact (hm y).2 ⟨h1, h2⟩))
    · next h =>
      exact ⟨not_lt.1 h, Or.inr e3, fun y h1 h2 => e2 y (by rw [← hf]; exact (hm y).2 ⟨h1, h2⟩)⟩

/-- **C100** boxes: the box of a cold trap spans the quartiles of its ice over the default runs with
a line at the median; whiskers end at the box or at a value; the values beyond them are exactly the
points drawn one by one; at most about 1% of the runs are below and 5% above. -/
theorem C100_box (rows : List (FlatRow K)) (trap : String) (j : Nat) :
    (trapValues rows "moonpies" trap j = [] → surfaceBox rows trap j = none) ∧
    (trapValues rows "moonpies" trap j ≠ [] → ∃ b, surfaceBox rows trap j = some b ∧
      Quantile (trapValues rows "moonpies" trap j) (1 / 4) b.q1 ∧
      Quantile (trapValues rows "moonpies" trap j) (1 / 2) b.med ∧
      Quantile (trapValues rows "moonpies" trap j) (3 / 4) b.q3 ∧
      b.whislo ≤ b.q1 ∧ b.q1 ≤ b.med ∧ b.med ≤ b.q3 ∧ b.q3 ≤ b.whishi ∧
      (b.whislo = b.q1 ∨ b.whislo ∈ trapValues rows "moonpies" trap j) ∧
      (b.whishi = b.q3 ∨ b.whishi ∈ trapValues rows "moonpies" trap j) ∧
      (∀ y, y ∈ b.fliers ↔ y ∈ trapValues rows "moonpies" trap j ∧
        (y < b.whislo ∨ b.whishi < y)) ∧
      ((trapValues rows "moonpies" trap j).countP (fun y => decide (y < b.whislo)) : K) <
        1 + 1 / 100 * ((trapValues rows "moonpies" trap j).length - 1) ∧
      ((trapValues rows "moonpies" trap j).countP (fun y => decide (b.whishi < y)) : K) <
        1 + 5 / 100 * ((trapValues rows "moonpies" trap j).length - 1)) := by
  obtain ⟨x, hx⟩ : ∃ x, x = trapValues rows "moonpies" trap j := ⟨_, rfl⟩
  unfold surfaceBox
  rw [← hx]
  constructor
  · intro h
    unfold boxStats
    rw [(C100_quantile x).1 _ h]
    rfl
  · intro hne
    obtain ⟨q1, a1, s1⟩ := quantile_spec (1 / 4 : K) (by norm_num) (by norm_num) x hne
    obtain ⟨md, a2, s2⟩ := quantile_spec (1 / 2 : K) (by norm_num) (by norm_num) x hne
    obtain ⟨q3, a3, s3⟩ := quantile_spec (3 / 4 : K) (by norm_num) (by norm_num) x hne
    obtain ⟨lo, a4, s4⟩ := quantile_spec (1 / 100 : K) (by norm_num) (by norm_num) x hne
    obtain ⟨hi, a5, s5⟩ := quantile_spec (95 / 100 : K) (by norm_num) (by norm_num) x hne
    obtain ⟨l1, l2, l3⟩ := whiskerLow_spec x lo q1
    obtain ⟨u1, u2, u3⟩ := whiskerHigh_spec x hi q3
    refine ⟨⟨q1, md, q3, whiskerLow x lo q1, whiskerHigh x hi q3, _⟩, by
      unfold boxStats
      simp only [a1, a2, a3, a4, a5, bind, Option.bind_some]; rfl, s1, s2, s3, l1,
      quantile_mono s1 s2 (by norm_num), quantile_mono s2 s3 (by norm_num), u1, ?_, ?_, ?_, ?_, ?_⟩
    · exact l2.imp id (·.1)
    · exact u2.imp id (·.1)
    · intro y
      simp only [List.mem_append, List.mem_filter, decide_eq_true_eq]
      tauto
    · have h1 : x.countP (fun y => decide (y < whiskerLow x lo q1)) ≤
          x.countP (fun y => decide (y < lo)) := by
        apply List.countP_mono_left
        intro y hy h
        simp only [decide_eq_true_eq] at h ⊢
        by_contra hc
        exact absurd (l3 y hy (not_lt.1 hc)) (not_le.2 h)
      have h2 := quantile_count_ge s4
      have h3 := countP_ge_add x lo
      have h4 : ((x.countP (fun y => decide (lo ≤ y)) : Nat) : K) +
        (x.countP (fun y => decide (y < lo)) : Nat) = x.length := by exact_mod_cast h3
      have h5 : ((x.countP (fun y => decide (y < whiskerLow x lo q1)) : Nat) : K) ≤
          (x.countP (fun y => decide (y < lo)) : Nat) := by exact_mod_cast h1
      simp only []
      linarith
    · have h1 : x.countP (fun y => decide (whiskerHigh x hi q3 < y)) ≤
          x.countP (fun y => decide (¬ y ≤ hi)) := by
        apply List.countP_mono_left
        intro y hy h
        simp only [decide_eq_true_eq] at h ⊢
        intro hc
        exact absurd (u3 y hy hc) (not_le.2 h)
      have h2 := quantile_count_le s5
      have h3 : x.countP (fun y => decide (y ≤ hi)) + x.countP (fun y => decide (¬ y ≤ hi)) =
          x.length := by
        rw [List.length_eq_countP_add_countP (fun y => decide (y ≤ hi))]
        congr 1
        apply List.countP_congr
        intro y _
        simp
      have h4 : ((x.countP (fun y => decide (y ≤ hi)) : Nat) : K) +
        (x.countP (fun y => decide (¬ y ≤ hi)) : Nat) = x.length := by exact_mod_cast h3
      have h5 : ((x.countP (fun y => decide (whiskerHigh x hi q3 < y)) : Nat) : K) ≤
          (x.countP (fun y => decide (¬ y ≤ hi)) : Nat) := by exact_mod_cast h1
      simp only []
      linarith

/-- **C100** (part of the claim that the arrows point at the percentiles they are labelled with):
the first is at the 75th percentile of the runs, the second at the 95th.  Missing: that the arrow
labelled `p99` is at the 99th, which is false. -/
theorem C100_arrows_partial (rows : List (FlatRow K)) (j : Nat)
    (h : trapValues rows "moonpies" "Faustini" j ≠ []) :
    ∃ u v, surfaceArrows rows j = [("p75", some u), ("p99", some v)] ∧
      Quantile (trapValues rows "moonpies" "Faustini" j) (75 / 100) u ∧
      Quantile (trapValues rows "moonpies" "Faustini" j) (95 / 100) v := by
  obtain ⟨u, a1, s1⟩ := quantile_spec (75 / 100 : K) (by norm_num) (by norm_num) _ h
  obtain ⟨v, a2, s2⟩ := quantile_spec (95 / 100 : K) (by norm_num) (by norm_num) _ h
  exact ⟨u, v, by unfold surfaceArrows; rw [a1, a2], s1, s2⟩

/-- Runs with 0, 1, …, 100 m of ice in Faustini. -/
def exRuns : List (FlatRow ℚ) :=
  (List.range 101).map (fun i : Nat => ⟨"Faustini", "moonpies", [some (i : ℚ)]⟩)

/-- **C100 refuted**: of 101 runs with 0, 1, …, 100 m the arrow labelled `p99` points at 95 m; five
runs have more. -/
theorem C100_p99_refuted : ¬ ∀ (rows : List (FlatRow ℚ)) (j : Nat) (v : ℚ),
    ("p99", some v) ∈ surfaceArrows rows j →
      99 / 100 * (((trapValues rows "moonpies" "Faustini" j).length : ℚ) - 1) <
        ((trapValues rows "moonpies" "Faustini" j).countP (fun x => decide (x ≤ v)) : Nat) := by
  intro H
  have := H exRuns 0 95 (by decide +kernel)
  revert this
  decide +kernel

/-- **C100** exceedance: the fraction printed for a cold trap, times its number of runs, is the
number of its runs with more ice than the threshold. -/
theorem C100_exceeds (rows : List (FlatRow K)) (trap : String) (j : Nat) (thresh : K)
    (h : ∃ r ∈ rows, r.runs = "moonpies" ∧ r.coldtrap = trap) :
    0 ≤ exceedFrac rows trap j thresh ∧ exceedFrac rows trap j thresh ≤ 1 ∧
    exceedFrac rows trap j thresh *
        (rows.countP (fun r => r.runs = "moonpies" ∧ r.coldtrap = trap) : Nat) =
      ((trapValues rows "moonpies" trap j).countP (fun y => decide (thresh < y)) : Nat) := by
  obtain ⟨l, hl⟩ : ∃ l, l = rows.filter (fun r => r.runs = "moonpies" ∧ r.coldtrap = trap) :=
    ⟨_, rfl⟩
  have hn : rows.countP (fun r => r.runs = "moonpies" ∧ r.coldtrap = trap) = l.length := by
    rw [hl, List.countP_eq_length_filter]
  have hpos : 0 < l.length := by
    obtain ⟨r, h1, h2, h3⟩ := h
    apply List.length_pos_of_mem (a := r)
    rw [hl, List.mem_filter]
    simp [h1, h2, h3]
  have hc : (trapValues rows "moonpies" trap j).countP (fun y => decide (thresh < y)) =
      l.countP (fun r => match r.vals[j]?.join with
        | some y => decide (thresh < y)
        | none => false) := by
    unfold trapValues
    rw [← hl]
    clear hl hn hpos
    induction l with
    | nil => rfl
    | cons r l ih =>
      rw [List.filterMap_cons, List.countP_cons]
      cases hr : r.vals[j]?.join with
      | none => simp [ih]
      | some y => simp [List.countP_cons, ih]
  have hle : l.countP (fun r => match r.vals[j]?.join with
        | some y => decide (thresh < y)
        | none => false) ≤ l.length := List.countP_le_length
  have hposK : (0 : K) < l.length := by exact_mod_cast hpos
  have hleK : ((l.countP (fun r => match r.vals[j]?.join with
        | some y => decide (thresh < y)
        | none => false) : Nat) : K) ≤ l.length := by exact_mod_cast hle
  have e : exceedFrac rows trap j thresh = ((l.countP (fun r => match r.vals[j]?.join with
        | some y => decide (thresh < y)
        | none => false) : Nat) : K) / l.length := by
    rw [hl]
    rfl
  rw [e, hn, hc]
  refine ⟨div_nonneg (Nat.cast_nonneg _) hposK.le, (div_le_one hposK).2 hleK,
    div_mul_cancel₀ _ hposK.ne'⟩

/-- **C100** threshold: for the depths 6 m and 100 m of the figure the threshold is at the 5%
line. -/
theorem C100_thresh_partial : surfaceThresh (6 : K) = 6 * (5 / 100) ∧
    surfaceThresh (100 : K) = 100 * (5 / 100) := by
  unfold surfaceThresh
  constructor <;> norm_num

/-- **C100 refuted**: for other depths it is not. -/
theorem C100_thresh_refuted : ¬ ∀ d : ℚ, 0 < d → surfaceThresh d = d * (5 / 100) := by
  intro H
  have := H 10 (by norm_num)
  revert this
  decide +kernel

/-! ## Violins -/

omit [FloorRing K] [IsStrictOrderedRing K] [Field K] in
theorem countP_map_strict {L : Type} [LinearOrder L] (f : K → L) (l : List K)
    (hf : ∀ x ∈ l, ∀ y ∈ l, x < y ↔ f x < f y) (a : K) (ha : a ∈ l) :
    (l.map f).countP (fun x => decide (x < f a)) = l.countP (fun x => decide (x < a)) ∧
    (l.map f).countP (fun x => decide (x ≤ f a)) = l.countP (fun x => decide (x ≤ a)) := by
  constructor
  · rw [List.countP_map]
    apply List.countP_congr
    intro x hx
    simp only [Function.comp, decide_eq_true_eq]
    exact (hf x hx a ha).symm
  · rw [List.countP_map]
    apply List.countP_congr
    intro x hx
    simp only [Function.comp, decide_eq_true_eq]
    rw [← not_lt, ← not_lt, hf a ha x hx]

/-- **C100** (part of the claim that the lines in a violin are the quartiles of the runs): they lie
between neighbouring runs, on the logarithmic axis, at the quarter, half and three quarters of the
runs with at least 1 m of ice.  Missing: that they are the quartiles of all runs, which is false. -/
theorem C100_violin_partial (rows : List (FlatRow ℝ)) (run trap : String) (j : Nat)
    (h : ∃ y ∈ trapValues rows run trap j, 1 ≤ y) :
    (∀ y, y ∈ violinValues rows run trap j ↔ y ∈ trapValues rows run trap j ∧ 1 ≤ y) ∧
    ∃ u v w, violinLines rows run trap j = [some u, some v, some w] ∧ 0 ≤ u ∧ u ≤ v ∧ v ≤ w ∧
      ∀ q y, (q, y) ∈ [(1 / 4, u), (1 / 2, v), (3 / 4, w)] → ∃ (k : Nat) (a b : ℝ),
        Ranked (violinValues rows run trap j) k a ∧
        Ranked (violinValues rows run trap j)
          (min (k + 1) ((violinValues rows run trap j).length - 1)) b ∧
        (k : ℝ) ≤ q * ((violinValues rows run trap j).length - 1) ∧
        q * ((violinValues rows run trap j).length - 1) < k + 1 ∧
        a ≤ 10 ^ y ∧ 10 ^ y ≤ b := by
  have hm : ∀ y, y ∈ violinValues rows run trap j ↔ y ∈ trapValues rows run trap j ∧ 1 ≤ y := by
    intro y
    unfold violinValues
    simp [List.mem_filter]
  refine ⟨hm, ?_⟩
  obtain ⟨x, hx⟩ : ∃ x, x = violinValues rows run trap j := ⟨_, rfl⟩
  have hne : x ≠ [] := by
    obtain ⟨y, h1, h2⟩ := h
    exact List.ne_nil_of_mem (by rw [hx]; exact (hm y).2 ⟨h1, h2⟩)
  have hx1 : ∀ y ∈ x, 1 ≤ y := fun y hy => ((hm y).1 (by rw [← hx]; exact hy)).2
  have hpos : ∀ y ∈ x, 0 < y := fun y hy => lt_of_lt_of_le one_pos (hx1 y hy)
  have hne' : x.map (Real.logb 10) ≠ [] := by simpa using hne
  obtain ⟨u, a1, s1⟩ := quantile_spec (25 / 100 : ℝ) (by norm_num) (by norm_num) _ hne'
  obtain ⟨v, a2, s2⟩ := quantile_spec (50 / 100 : ℝ) (by norm_num) (by norm_num) _ hne'
  obtain ⟨w, a3, s3⟩ := quantile_spec (75 / 100 : ℝ) (by norm_num) (by norm_num) _ hne'
  have key : ∀ q y, Quantile (x.map (Real.logb 10)) q y → ∃ (k : Nat) (a b : ℝ),
        Ranked x k a ∧ Ranked x (min (k + 1) (x.length - 1)) b ∧
        (k : ℝ) ≤ q * (x.length - 1) ∧ q * (x.length - 1) < k + 1 ∧ a ≤ 10 ^ y ∧ 10 ^ y ≤ b := by
    intro q y hq
    obtain ⟨k, a, b, ra, rb, h1, h2, h3, h4, -⟩ := quantile_between hq
    rw [List.length_map] at rb h3 h4
    obtain ⟨a', ha', rfl⟩ := List.mem_map.1 ra.1
    obtain ⟨b', hb', rfl⟩ := List.mem_map.1 rb.1
    have hmono : ∀ s ∈ x, ∀ t ∈ x, s < t ↔ Real.logb 10 s < Real.logb 10 t := fun s hs t ht =>
      (Real.logb_lt_logb_iff (by norm_num) (hpos s hs) (hpos t ht)).symm
    have ca := countP_map_strict (Real.logb 10) x hmono a' ha'
    have cb := countP_map_strict (Real.logb 10) x hmono b' hb'
    refine ⟨k, a', b', ⟨ha', by rw [← ca.1]; exact ra.2.1, by rw [← ca.2]; exact ra.2.2⟩,
      ⟨hb', by rw [← cb.1]; exact rb.2.1, by rw [← cb.2]; exact rb.2.2⟩, h3, h4, ?_, ?_⟩
    · exact (Real.logb_le_iff_le_rpow (by norm_num) (hpos a' ha')).1 h1
    · exact (Real.le_logb_iff_rpow_le (by norm_num) (hpos b' hb')).1 h2
  refine ⟨u, v, w, ?_, ?_, quantile_mono s1 s2 (by norm_num), quantile_mono s2 s3 (by norm_num), ?_⟩
  · unfold violinLines
    simp only []
    rw [← hx, a1, a2, a3]
  · obtain ⟨k, a, b, ra, rb, h1, -⟩ := quantile_between s1
    obtain ⟨a', ha', rfl⟩ := List.mem_map.1 ra.1
    exact (Real.logb_nonneg (by norm_num) (hx1 a' ha')).trans h1
  · rw [← hx]
    intro q y hqy
    simp only [List.mem_cons, Prod.mk.injEq, List.not_mem_nil, or_false] at hqy
    rcases hqy with ⟨rfl, rfl⟩ | ⟨rfl, rfl⟩ | ⟨rfl, rfl⟩
    · exact key _ _ (by convert s1 using 1; norm_num)
    · exact key _ _ (by convert s2 using 1; norm_num)
    · exact key _ _ (by convert s3 using 1; norm_num)

/-- **C100 refuted**: the middle line of a violin is not at the median of the runs: with three runs
without ice and one with 10 m it is at 10 m. -/
theorem C100_violin_refuted : ¬ ∀ (rows : List (FlatRow ℝ)) (run trap : String) (j : Nat) u v w,
    violinLines rows run trap j = [u, some v, w] →
      1 / 2 * (((trapValues rows run trap j).length : ℝ) - 1) <
        ((trapValues rows run trap j).countP (fun x => decide ((10 : ℝ) ^ v ≤ x)) : Nat) := by
  intro H
  obtain ⟨rows, hr⟩ : ∃ rows : List (FlatRow ℝ), rows =
      [⟨"Cabeus", "moonpies", [some 0]⟩, ⟨"Cabeus", "moonpies", [some 0]⟩,
       ⟨"Cabeus", "moonpies", [some 0]⟩, ⟨"Cabeus", "moonpies", [some 10]⟩] := ⟨_, rfl⟩
  have ht : trapValues rows "moonpies" "Cabeus" 0 = [0, 0, 0, 10] := by
    rw [hr]; simp [trapValues]
  have hv : violinValues rows "moonpies" "Cabeus" 0 = [10] := by
    unfold violinValues
    rw [ht]
    norm_num [List.filter_cons]
  have hl : ∀ q : ℝ, quantile q [Real.logb 10 10] = some 1 := by
    intro q
    have : Real.logb 10 10 = 1 := Real.logb_self_eq_one (by norm_num)
    unfold quantile
    rw [this]
    simp
  have := H rows "moonpies" "Cabeus" 0 (some 1) 1 (some 1) (by
    unfold violinLines
    simp only []
    rw [hv, List.map_cons, List.map_nil, hl, hl, hl])
  rw [ht] at this
  norm_num [List.countP_cons] at this

/-- The example runs have a box: the median is 50 m, the whiskers end at 1 m and 95 m. -/
example : surfaceBox exRuns "Faustini" 0 = some ⟨25, 50, 75, 1, 95, [0, 96, 97, 98, 99, 100]⟩ ∧
    exceedFrac exRuns "Faustini" 0 5 = 95 / 101 := by
  decide +kernel

end MoonPIES
