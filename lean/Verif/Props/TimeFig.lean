import Verif.Lemmas.TimeFig
import Verif.Props.IceByModule

/-!
# C99: ice by module against time
-/

namespace MoonPIES

open Spec

/-- The points of a curve of the left panel. -/
theorem timeFigLeft_points (t : ModuleTable) (bins : Nat) (k : ModCol) (lo hi : ℝ)
    (hr : Spec.Range (t .time) lo hi) (hlt : lo < hi) (hk : (t k).length = (t .time).length) :
    ∃ l, timeFigLeft t bins k = .ok l ∧ l.length = 85 ∧ ∀ i, i < 85 →
      l[i]? = some (if sliceOf (t .time) (t .time) lo hi 85 i = [] then none else
        some ((sliceOf (t .time) (t .time) lo hi 85 i).sum /
            (sliceOf (t .time) (t .time) lo hi 85 i).length,
          (sliceOf (t .time) (t k) lo hi 85 i).sum /
            (sliceOf (t .time) (t k) lo hi 85 i).length)) := by
  obtain ⟨x, h1, h2, h3⟩ := groupMeans_range (n := 85) (by norm_num) (t .time) hr hlt
  obtain ⟨y, g1, g2, g3⟩ := groupMeans_range (n := 85) (by norm_num) (t k) hr hlt
  refine ⟨_, by unfold timeFigLeft; simp only [h1, g1, bind, Except.bind]; rfl, by simp [h2, g2], ?_⟩
  intro i hi'
  rw [List.getElem?_zipWith, h3 i hi', g3 i hi']
  have hl := length_slices (lo := lo) (hi := hi) (n := 85) (i := i) (t .time) (t k) hk
  unfold groupMean
  by_cases h : sliceOf (t .time) (t .time) lo hi 85 i = []
  · simp [h]
  · have h' : sliceOf (t .time) (t k) lo hi 85 i ≠ [] := by
      intro h'
      rw [h', List.length_nil] at hl
      exact h (List.length_eq_zero_iff.1 hl.symm)
    simp [h, h']

/-- **C99** slices: the left panel shows, for each of 85 slices of equal length of the time range,
the mean time and the mean per timestep of a module over the timesteps of this slice, and nothing
for a slice without timesteps.  Every timestep is in exactly one slice, so that the points with
their numbers of timesteps account for all the ice. -/
theorem C99_slices (t : ModuleTable) (bins : Nat) (k : ModCol) (lo hi : ℝ)
    (hr : Spec.Range (t .time) lo hi) (hlt : lo < hi) (hk : (t k).length = (t .time).length) :
    (∀ x ∈ t .time, ∃ i, i < 85 ∧ InSlice lo hi 85 i x ∧ ∀ j, InSlice lo hi 85 j x → j = i) ∧
    ∃ l, timeFigLeft t bins k = .ok l ∧ l.length = 85 ∧
      (∀ i, i < 85 →
        (sliceOf (t .time) (t .time) lo hi 85 i = [] → l[i]? = some none) ∧
        (sliceOf (t .time) (t .time) lo hi 85 i ≠ [] → ∃ p, l[i]? = some (some p) ∧
          p.1 * (sliceOf (t .time) (t .time) lo hi 85 i).length =
            (sliceOf (t .time) (t .time) lo hi 85 i).sum ∧
          p.2 * (sliceOf (t .time) (t .time) lo hi 85 i).length =
            (sliceOf (t .time) (t k) lo hi 85 i).sum)) ∧
      ((List.range 85).map (fun i => ((l.getD i none).elim 0 (·.2)) *
        (sliceOf (t .time) (t .time) lo hi 85 i).length)).sum = (t k).sum := by
  refine ⟨fun x hx => inSlice_unique hlt (by norm_num) (hr.2.2 x hx).1 (hr.2.2 x hx).2, ?_⟩
  obtain ⟨l, h1, h2, h3⟩ := timeFigLeft_points t bins k lo hi hr hlt hk
  have hl : ∀ i, (sliceOf (t .time) (t k) lo hi 85 i).length =
      (sliceOf (t .time) (t .time) lo hi 85 i).length := fun i => length_slices _ _ hk
  have hpos : ∀ i, sliceOf (t .time) (t .time) lo hi 85 i ≠ [] →
      ((sliceOf (t .time) (t .time) lo hi 85 i).length : ℝ) ≠ 0 := by
    intro i h
    have : (sliceOf (t .time) (t .time) lo hi 85 i).length ≠ 0 :=
      fun h' => h (List.length_eq_zero_iff.1 h')
    exact_mod_cast this
  refine ⟨l, h1, h2, ?_, ?_⟩
  · intro i hi'
    refine ⟨fun h => by rw [h3 i hi', if_pos h], fun h => ⟨_, by rw [h3 i hi', if_neg h], ?_, ?_⟩⟩
    · exact div_mul_cancel₀ _ (hpos i h)
    · rw [hl]; exact div_mul_cancel₀ _ (hpos i h)
  · rw [← sum_slices hlt (n := 85) (by norm_num) (t .time) (t k) hk hr.2.2]
    congr 1
    apply List.map_congr_left
    intro i hi'
    rw [List.mem_range] at hi'
    rw [List.getD_eq_getElem?_getD, h3 i hi', Option.getD_some]
    split
    · next h =>
      have : sliceOf (t .time) (t k) lo hi 85 i = [] := by
        have := hl i
        rw [h, List.length_nil] at this
        exact List.length_eq_zero_iff.1 this
      simp [h, this]
    · next h =>
      simp only [Option.elim_some]
      rw [hl]; exact div_mul_cancel₀ _ (hpos i h)

/-- **C99** a run with one time: only the middle slice has a point, at this time and the mean. -/
theorem C99_single (t : ModuleTable) (bins : Nat) (k : ModCol) (x : ℝ) (hne : t .time ≠ [])
    (hx : ∀ y ∈ t .time, y = x) (hk : (t k).length = (t .time).length) :
    ∃ l, timeFigLeft t bins k = .ok l ∧ l.length = 85 ∧ ∀ i, i < 85 →
      l[i]? = some (if i = 42 then some (x, (t k).sum / (t k).length) else none) := by
  obtain ⟨y, l, hyl⟩ := List.exists_cons_of_ne_nil hne
  have e1 := eraMin_spec l y
  have e2 := eraMax_spec l y
  have q1 : l.foldl min y = x := hx _ (by rw [hyl]; exact e1.2)
  have q2 : l.foldl max y = x := hx _ (by rw [hyl]; exact e2.2)
  obtain ⟨d, hd, hd0⟩ : ∃ d : ℝ, d = (if x = 0 then 1 / 1000 else |x| / 1000) ∧ 0 < d := by
    refine ⟨_, rfl, ?_⟩
    split
    · norm_num
    · rename_i h
      have := abs_pos.2 h
      positivity
  have hcut : cutEdges 85 (t .time) =
      .ok ((List.range 86).map fun i : Nat => x - d + (i : ℝ) * (2 * d / 85)) := by
    rw [hyl]
    unfold cutEdges
    simp only [q1, q2]
    rw [if_neg (by norm_num), if_pos trivial, ← hd]
    have := linspace_eq (x - d) (x + d) 86 (by norm_num)
    rw [show (((85 : Nat) : Int) + 1) = ((86 : Nat) : Int) from rfl, this]
    congr 1
    apply List.map_congr_left
    intro i _
    push_cast
    ring
  have hbin : ∀ (col : List ℝ) (i : Nat), col.length = (t .time).length → i < 85 →
      binValues (t .time) col (x - d + (i : ℝ) * (2 * d / 85)) (x - d + ((i + 1 : Nat) : ℝ) * (2 * d / 85)) =
        if i = 42 then col else [] := by
    intro col i hc hi
    unfold binValues
    by_cases h : i = 42
    · rw [if_pos h, List.filter_eq_self.2, List.map_snd_zip hc.le]
      rintro ⟨a, b⟩ hab
      rw [hx a (List.of_mem_zip hab).1, decide_eq_true_eq]
      subst h
      push_cast
      constructor <;> linarith
    · rw [if_neg h, List.filter_eq_nil_iff.2, List.map_nil]
      rintro ⟨a, b⟩ hab
      rw [hx a (List.of_mem_zip hab).1, decide_eq_true_eq]
      rintro ⟨h1, h2⟩
      simp only [] at h1 h2
      have g1 : (i : ℝ) < 42.5 := by
        by_contra hc
        push Not at hc
        nlinarith
      have g2 : (41.5 : ℝ) ≤ i := by
        by_contra hc
        push Not at hc
        push_cast at h2
        nlinarith
      have g1' : i < 43 := by exact_mod_cast (by linarith : (i : ℝ) < 43)
      have g2' : 41 < i := by exact_mod_cast (by linarith : (41 : ℝ) < i)
      omega
  have hgm : ∀ col : List ℝ, col.length = (t .time).length → ∃ m, groupMeans 85 (t .time) col = .ok m ∧
      m.length = 85 ∧ ∀ i, i < 85 → m[i]? = some (if i = 42 then some (col.sum / col.length) else none) := by
    intro col hc
    unfold groupMeans
    rw [hcut]
    simp only [bind, Except.bind]
    refine ⟨_, rfl, by simp, ?_⟩
    intro i hi
    have hcol : col ≠ [] := by
      intro h
      rw [h, hyl] at hc
      simp at hc
    rw [List.getElem?_zipWith, List.getElem?_tail, List.getElem?_map, List.getElem?_map,
      List.getElem?_range (by omega), List.getElem?_range (by omega)]
    simp only [Option.map_some]
    rw [hbin col i hc hi]
    unfold groupMean
    by_cases h : i = 42
    · simp [h, hcol]
    · simp [h]
  obtain ⟨a, h1, h2, h3⟩ := hgm (t .time) rfl
  obtain ⟨b, g1, g2, g3⟩ := hgm (t k) hk
  have hsum : (t .time).sum / (t .time).length = x := by
    have : t .time = List.replicate (t .time).length x := List.eq_replicate_iff.2 ⟨rfl, hx⟩
    have hl : ((t .time).length : ℝ) ≠ 0 := by
      rw [hyl, List.length_cons]; positivity
    rw [div_eq_iff hl]
    conv_lhs => rw [this]
    rw [List.sum_replicate, nsmul_eq_mul, mul_comm]
  refine ⟨_, by unfold timeFigLeft; simp only [h1, g1, bind, Except.bind]; rfl, by simp [h2, g2], ?_⟩
  intro i hi
  rw [List.getElem?_zipWith, h3 i hi, g3 i hi]
  by_cases h : i = 42
  · simp [h, hsum]
  · simp [h]

/-- A table with three rows of the same time: the mean of the column is drawn at this time. -/
example : ∃ l, timeFigLeft (fun c => if c = .time then [5, 5, 5] else [1, 2, 6]) 0 .volcanic = .ok l ∧
    l[42]? = some (some (5, 3)) ∧ l[41]? = some none := by
  obtain ⟨l, h1, -, h2⟩ := C99_single (fun c => if c = .time then [5, 5, 5] else [1, 2, 6]) 0
    .volcanic 5 (by simp) (by simp) (by simp)
  refine ⟨l, h1, ?_, ?_⟩
  · rw [h2 42 (by norm_num), if_pos rfl, if_neg (by simp)]; norm_num
  · rw [h2 41 (by norm_num)]; norm_num

theorem uniformGrid_range {ts dt : ℝ} (hdt : 0 < dt) {n : Nat} (hn : 0 < n) :
    Spec.Range (uniformGrid ts dt n) (ts - ((n : ℝ) - 1) * dt) ts := by
  unfold uniformGrid
  refine ⟨List.mem_map.2 ⟨n - 1, by simp; omega, ?_⟩, List.mem_map.2 ⟨0, by simp; omega, by simp⟩, ?_⟩
  · rw [Nat.cast_sub (by omega), Nat.cast_one]
  · intro x hx
    obtain ⟨j, hj, rfl⟩ := List.mem_map.1 hx
    rw [List.mem_range] at hj
    have h1 : (j : ℝ) ≤ (n : ℝ) - 1 := by
      have : j + 1 ≤ n := hj
      have : ((j : ℝ) + 1) ≤ n := by exact_mod_cast this
      linarith
    have h2 := mul_le_mul_of_nonneg_right h1 hdt.le
    have h3 : 0 ≤ (j : ℝ) * dt := by positivity
    constructor <;> linarith

/-- **C99** even slices: when the number of timesteps is a multiple `85 m` of the number of slices
each slice holds exactly `m` timesteps, one after the other, and the points are their means. -/
theorem C99_even (t : ModuleTable) (bins : Nat) (k : ModCol) (ts dt : ℝ) (m : Nat) (hdt : 0 < dt)
    (hm : 0 < m) (ht : t .time = uniformGrid ts dt (85 * m)) (hk : (t k).length = 85 * m) :
    ∃ l, timeFigLeft t bins k = .ok l ∧ l.length = 85 ∧ ∀ i, i < 85 → l[i]? = some (some
      ((((t .time).drop ((84 - i) * m)).take m).sum / m,
        (((t k).drop ((84 - i) * m)).take m).sum / m)) := by
  have hr := uniformGrid_range (ts := ts) hdt (n := 85 * m) (by omega)
  rw [← ht] at hr
  have hlen : (t .time).length = 85 * m := by rw [ht]; simp [uniformGrid]
  have hlt : ts - (((85 * m : Nat) : ℝ) - 1) * dt < ts := by
    have : (1 : ℝ) < ((85 * m : Nat) : ℝ) := by
      have : 1 < 85 * m := by omega
      exact_mod_cast this
    have := mul_pos (sub_pos.2 this) hdt
    linarith
  obtain ⟨l, h1, h2, h3⟩ := timeFigLeft_points t bins k _ _ hr hlt (by rw [hk, hlen])
  refine ⟨l, h1, h2, fun i hi => ?_⟩
  have hs : ∀ col : List ℝ, col.length = 85 * m →
      sliceOf (t .time) col (ts - (((85 * m : Nat) : ℝ) - 1) * dt) ts 85 i =
        (col.drop ((84 - i) * m)).take m := by
    intro col hc
    rw [ht]
    exact slice_equal (n := 85) (by norm_num) (by omega) hdt hi col hc
  have hb : (84 - i) * m + m ≤ 85 * m := by
    have : (84 - i) * m + m = (84 - i + 1) * m := by ring
    rw [this]
    exact Nat.mul_le_mul_right m (by omega)
  have hlm : ∀ col : List ℝ, col.length = 85 * m →
      ((col.drop ((84 - i) * m)).take m).length = m := by
    intro col hc
    rw [List.length_take, List.length_drop, hc]
    omega
  rw [h3 i hi, hs _ hlen, hs _ hk, hlm _ hlen, hlm _ hk, if_neg]
  intro h
  have := hlm _ hlen
  rw [h, List.length_nil] at this
  omega

/-- **C99** totals: with times in decreasing order, as in a run, the right panel shows at each time
the total a module has delivered up to and including this time, and ends with the total of the
module. -/
theorem C99_totals (t : ModuleTable) (k : ModCol) (ht : (t .time).Pairwise (· > ·))
    (hk : (t k).length = (t .time).length) :
    (timeFigRight t k).length = (t .time).length ∧
    (∀ (i : Nat) x, (t .time)[i]? = some x →
      (timeFigRight t k)[i]? = some (x, totalBefore (t .time) (t k) x)) ∧
    (t k ≠ [] → ((timeFigRight t k).getLast?).map (·.2) = some (t k).sum) := by
  have hl : (timeFigRight t k).length = (t .time).length := by
    unfold timeFigRight
    rw [List.length_zip, cumSum_length, hk, min_self]
  have hg : ∀ (i : Nat) x, (t .time)[i]? = some x →
      (timeFigRight t k)[i]? = some (x, ((t k).take (i + 1)).sum) := by
    intro i x hx
    have hi := (List.getElem?_eq_some_iff.1 hx).1
    unfold timeFigRight
    rw [List.getElem?_zip_eq_some]
    exact ⟨hx, cumSum_get _ _ (by rw [hk]; exact hi)⟩
  refine ⟨hl, fun i x hx => ?_, fun hne => ?_⟩
  · rw [hg i x hx, totalBefore_take _ _ i x ht hk hx]
  · have hpos : 0 < (t .time).length := by
      rw [← hk]; exact List.length_pos_iff.2 hne
    obtain ⟨x, hx⟩ : ∃ x, (t .time)[(t .time).length - 1]? = some x :=
      ⟨_, List.getElem?_eq_getElem (by omega)⟩
    rw [List.getLast?_eq_getElem?, hl, hg _ x hx, Nat.sub_add_cancel hpos, ← hk, List.take_length]
    rfl

variable {σ : Type}

theorem astCometSeeds_lengths (g : Gen σ) (hgen : LawfulGen g) (c : RunCfg) (d : RunData)
    (hc : PhysicalCfg c) (hd : PhysicalData c d) (hr : Runnable c d) (draw : Nat → Int)
    (seeds : List Int) (t : ModuleTable) (h : astCometSeeds g c d draw seeds = .ok t) (k : ModCol) :
    (t k).length = (t .time).length := by
  obtain ⟨time, ts, h1, hne, h2, h3⟩ := astCometSeeds_inv g c d draw seeds t h
  obtain ⟨time', h1', hne', -⟩ := timeArray_last hc hr
  rw [h1] at h1'
  cases h1'
  have hlen : ∀ x ∈ ts, ∀ k, (x.1 k).length = time.length ∧ (x.2 k).length = time.length := by
    obtain ⟨rs, -, h6⟩ := forall₂_split (Q := fun (x : ModuleTable × ModuleTable) (_ : Unit) =>
      ∀ k, (x.1 k).length = time.length ∧ (x.2 k).length = time.length) (P := fun _ _ => True) h2 (by
        rintro n ⟨x, y⟩ ⟨q1, q2⟩
        obtain ⟨a, k, b, p1, p2, p3, p4, p5, p6, p7, p8, p9, p10, p11, p12, p13⟩ :=
          seed_modules g hgen (c := { c with seed := n }) { hc with } { hd with } { hr with } h1 hne'
            q1 q2
        exact ⟨(), trivial, p3⟩)
    intro x hx
    obtain ⟨_, h⟩ := forall₂_right h6 x hx
    exact h
  have h4 := h3 hlen
  rw [(h4 k).1, (h4 .time).1]

/-- **C99** with the default configuration: the figure is made, each of its 85 slices holds five
timesteps of 10 Myr, the first (youngest) 10 to 50 Myr, and the curve on the right ends with what
the module delivers in total. -/
theorem C99_default (g : Gen σ) (hgen : LawfulGen g) (d : RunData) (seed : Int)
    (hd : PhysicalData (RunCfg.default seed) d) (hr : Runnable (RunCfg.default seed) d)
    (draw : Nat → Int) (seeds : List Int) (hs : seeds ≠ []) :
    ∃ t, astCometSeeds g (RunCfg.default seed) d draw seeds = .ok t ∧
      t .time = uniformGrid 4.25e9 1e7 425 ∧ ∀ bins k, ∃ l, timeFigLeft t bins k = .ok l ∧
        l.length = 85 ∧
        (∀ i : Nat, i < 85 → l[i]? = some (some ((3e7 + (i : ℝ) * 5e7 : ℝ),
          (((t k).drop (420 - 5 * i)).take 5).sum / 5))) ∧
        ((timeFigRight t k).getLast?).map (·.2) = some (t k).sum := by
  obtain ⟨t, ht⟩ := C89_returns g hgen (RunCfg.default seed) d (default_physical seed) hd hr draw
    seeds hs
  obtain ⟨time, volc, solar, runs, h1, -, -, -, h2, -⟩ := C89_modules_partial g hgen
    (RunCfg.default seed) d (default_physical seed) hd hr draw seeds t ht
  obtain ⟨time', e1, e2⟩ := default_time seed
  rw [h1] at e1
  cases e1
  have ht' : t .time = uniformGrid 4.25e9 1e7 425 := by
    rw [h2, e2]
    have q1 : (RunCfg.default seed).timestart = 4.25e9 := rfl
    have q2 : (RunCfg.default seed).timestep = 10e6 := rfl
    rw [q1, q2]
    norm_num
  have hlen : (t .time).length = 425 := by rw [ht']; simp [uniformGrid]
  refine ⟨t, ht, ht', fun bins k => ?_⟩
  have hk := astCometSeeds_lengths g hgen _ d (default_physical seed) hd hr draw seeds t ht k
  obtain ⟨l, g1, g2, g3⟩ := C99_even t bins k 4.25e9 1e7 5 (by norm_num) (by norm_num) ht'
    (by rw [hk, hlen])
  refine ⟨l, g1, g2, fun i hi => ?_, ?_⟩
  · rw [g3 i hi]
    have e : (84 - i) * 5 = 420 - 5 * i := by omega
    rw [e]
    have hb : ((t .time).drop (420 - 5 * i)).take 5 =
        (List.range 5).map (fun j : Nat => (4.25e9 : ℝ) - ((420 - 5 * i + j : Nat) : ℝ) * 1e7) := by
      rw [ht']
      unfold uniformGrid
      rw [← List.map_drop, ← List.map_take]
      apply List.ext_getElem?
      intro j
      rw [List.getElem?_map, List.getElem?_map, List.getElem?_take, List.getElem?_drop]
      by_cases hj : j < 5
      · rw [if_pos hj, List.getElem?_range hj, List.getElem?_range (by omega)]
        rfl
      · rw [if_neg hj, List.getElem?_eq_none (by simp; omega)]
        rfl
    rw [hb]
    have e5 : List.range 5 = [0, 1, 2, 3, 4] := rfl
    rw [e5]
    have c : ∀ j : Nat, ((420 - 5 * i + j : Nat) : ℝ) = 420 - 5 * i + j := by
      intro j
      rw [Nat.cast_add, Nat.cast_sub (by omega)]
      push_cast
      ring
    simp only [List.map_cons, List.map_nil, List.sum_cons, List.sum_nil, c]
    congr 3
    · push_cast
      ring
  · refine (C99_totals t k ?_ hk).2.2 ?_
    · rw [ht']
      unfold uniformGrid
      rw [List.pairwise_map]
      refine List.pairwise_lt_range.imp ?_
      intro a b hab
      have : (a : ℝ) < b := by exact_mod_cast hab
      simp only [gt_iff_lt]
      linarith
    · intro h
      rw [h, List.length_nil, hlen] at hk
      omega

/-- **C99 refuted**: the number of slices asked for is not what is drawn. -/
theorem C99_bins_refuted : ¬ ∀ (t : ModuleTable) (bins : Nat) (k : ModCol) l,
    timeFigLeft t bins k = .ok l → l.length = bins := by
  intro H
  have hr : Spec.Range ((fun _ => [0, 1] : ModuleTable) .time) 0 1 :=
    ⟨by simp, by simp, by intro x hx; simp at hx; rcases hx with rfl | rfl <;> norm_num⟩
  obtain ⟨l, h1, h2, -⟩ := timeFigLeft_points (fun _ => [0, 1]) 10 .basin 0 1 hr (by norm_num) rfl
  have := H _ _ _ _ h1
  omega

/-- **C99 refuted**: the shading labelled with the maximum of a loss is not its maximum over a
slice, but its mean. -/
theorem C99_shade_refuted : ¬ ∀ (t : ModuleTable) (bins : Nat) (lo hi : ℝ) l,
    Spec.Range (t .time) lo hi → lo < hi → (t .gardening).length = (t .time).length →
    timeFigLeft t bins .gardening = .ok l → ∀ (i : Nat) p, l[i]? = some (some p) →
      ∀ y ∈ sliceOf (t .time) (t .gardening) lo hi 85 i, y ≤ p.2 := by
  intro H
  obtain ⟨t, ht⟩ : ∃ t : ModuleTable, t = fun k => if k = .time then [0, 0.001, 1] else [1, 3, 5] :=
    ⟨_, rfl⟩
  have e1 : t .time = [0, 0.001, 1] := by rw [ht]; rfl
  have e2 : t .gardening = [1, 3, 5] := by rw [ht]; rfl
  have hr : Spec.Range (t .time) 0 1 := by
    rw [e1]
    refine ⟨by simp, by simp, ?_⟩
    intro x hx
    simp only [List.mem_cons, List.not_mem_nil, or_false] at hx
    rcases hx with rfl | rfl | rfl <;> norm_num
  obtain ⟨l, h1, h2, h3⟩ := timeFigLeft_points t 85 .gardening 0 1 hr (by norm_num)
    (by rw [e1, e2]; rfl)
  have i1 : InSlice (0 : ℝ) 1 85 0 0 := by unfold InSlice; norm_num
  have i2 : InSlice (0 : ℝ) 1 85 0 0.001 := by unfold InSlice; norm_num
  have i3 : ¬ InSlice (0 : ℝ) 1 85 0 1 := by unfold InSlice; norm_num
  have s1 : sliceOf (t .time) (t .gardening) 0 1 85 0 = [1, 3] := by
    rw [e1, e2]; simp [sliceOf, i1, i2, i3]
  have s2 : sliceOf (t .time) (t .time) 0 1 85 0 = [0, 0.001] := by
    rw [e1]; simp [sliceOf, i1, i2, i3]
  have := h3 0 (by norm_num)
  rw [s1, s2, if_neg (by simp)] at this
  have := H t 85 0 1 l hr (by norm_num) (by rw [e1, e2]; rfl) h1 0 _ this 3 (by rw [s1]; simp)
  norm_num at this

/-- The default configuration with the shipped data has such a figure; its first point is at
30 Myr. -/
example : ∃ t l, ∃ p : ℝ × ℝ, astCometSeeds constGen (RunCfg.default 1) (shippedData [] sortDesc id id)
    (fun _ => 1) [1, 2] = .ok t ∧ timeFigLeft t 85 .volcanic = .ok l ∧ l[0]? = some (some p) ∧
      p.1 = (3e7 : ℝ) := by
  obtain ⟨t, h1, -, h2⟩ := C99_default constGen constGen_lawful (shippedData [] sortDesc id id) 1
    (default_data _ _ _ _ sortDesc_spec 1) (default_runnable _ _ _ _ 1) (fun _ => 1) [1, 2] (by simp)
  obtain ⟨l, h3, -, h4, -⟩ := h2 85 .volcanic
  exact ⟨t, l, _, h1, h3, h4 0 (by norm_num), by norm_num⟩

end MoonPIES
