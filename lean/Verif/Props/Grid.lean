import Mathlib.Data.Rat.Floor
import Mathlib.Algebra.Order.Archimedean.Basic
import Verif.Props.Dists
import Verif.Model.Grid

/-!
# C67, C68: gridded outputs
-/

namespace MoonPIES

open Real

/-! ## C68: the axes -/

section axes

variable {K : Type} [Field K] [LinearOrder K] [IsStrictOrderedRing K] [FloorRing K]

/-- Spec: the points from `a` to `b` in `n` equal steps, ends included. -/
def Spec.EvenlySpaced (l : List K) (a step : K) (n : Nat) : Prop :=
  l.length = n + 1 ∧ ∀ i : Nat, i ≤ n → l[i]? = some (a + i * step)

/-- Number of points of an axis of half-width `size`. -/
theorem npArange_axis (a b step : K) (hs : step ≠ 0) :
    npArange a b step = .ok ((List.range ⌈(b - a) / step⌉.toNat).map
      (fun i : Nat => a + (i : K) * step)) := by
  unfold npArange; rw [if_neg hs]

/-- **C68** When the step divides the extent (`m` steps from edge to edge), the axes run from
`ysize` down to `-ysize` and from `-xsize` up to `xsize`, ends included. -/
theorem C68_symmetric_axes (ysize xsize step : K) (hs : 0 < step) (ny nx : Nat)
    (hy : 2 * ysize = ny * step) (hx : 2 * xsize = nx * step) :
    ∃ ys xs, gridArrays ysize xsize step = .ok (ys, xs) ∧
      Spec.EvenlySpaced ys ysize (-step) ny ∧ ys[ny]? = some (-ysize) ∧
      Spec.EvenlySpaced xs (-xsize) step nx ∧ xs[nx]? = some xsize := by
  have e1 : (-ysize - step - ysize) / -step = ((ny + 1 : Nat) : K) := by
    rw [div_eq_iff (by linarith : -step ≠ 0)]; push_cast; linarith
  have e2 : (xsize + step - -xsize) / step = ((nx + 1 : Nat) : K) := by
    rw [div_eq_iff hs.ne']; push_cast; linarith
  refine ⟨(List.range (ny + 1)).map (fun i : Nat => ysize + (i : K) * -step),
    (List.range (nx + 1)).map (fun i : Nat => -xsize + (i : K) * step),
    ?_, ⟨?_, ?_⟩, ?_, ⟨?_, ?_⟩, ?_⟩
  · unfold gridArrays
    rw [npArange_axis _ _ _ (by linarith : -step ≠ 0), npArange_axis _ _ _ hs.ne', e1, e2]
    simp only [Int.ceil_natCast, Int.toNat_natCast]
    rfl
  · simp
  · intro i hi; simp [Nat.lt_succ_of_le hi]
  · simp only [List.getElem?_map, List.getElem?_range (Nat.lt_succ_self ny), Option.map_some,
      Option.some.injEq]
    linarith
  · simp
  · intro i hi; simp [Nat.lt_succ_of_le hi]
  · simp only [List.getElem?_map, List.getElem?_range (Nat.lt_succ_self nx), Option.map_some,
      Option.some.injEq]
    linarith

/-- **C68** In general (any positive step) the axis starts at the edge and its last point lies at
or beyond the opposite edge by less than one step, so the grid always covers the map but is
symmetric only when the step divides the extent. -/
theorem C68_axes_cover (ysize xsize step : K) (hs : 0 < step) (hy : 0 ≤ ysize) (hx : 0 ≤ xsize) :
    ∃ ys xs ylast xlast, gridArrays ysize xsize step = .ok (ys, xs) ∧
      ys[0]? = some ysize ∧ ys.getLast? = some ylast ∧ ylast ≤ -ysize ∧ -ysize - step < ylast ∧
      xs[0]? = some (-xsize) ∧ xs.getLast? = some xlast ∧ xsize ≤ xlast ∧ xlast < xsize + step := by
  have key : ∀ size : K, 0 ≤ size → ∃ n : Nat, ⌈(2 * size + step) / step⌉.toNat = n + 1 ∧
      2 * size ≤ n * step ∧ (n : K) * step < 2 * size + step := by
    intro size h0
    have hq : 1 ≤ (2 * size + step) / step := by rw [le_div_iff₀ hs]; linarith
    have hc : 1 ≤ ⌈(2 * size + step) / step⌉ := by
      have := Int.le_ceil ((2 * size + step) / step)
      exact_mod_cast hq.trans this
    obtain ⟨n, hn⟩ := Int.eq_ofNat_of_zero_le (a := ⌈(2 * size + step) / step⌉ - 1) (by omega)
    have hn' : ⌈(2 * size + step) / step⌉ = (n : Int) + 1 := by omega
    refine ⟨n, by omega, ?_, ?_⟩
    · have := Int.le_ceil ((2 * size + step) / step)
      rw [hn', div_le_iff₀ hs] at this
      push_cast at this
      linarith
    · have := Int.ceil_lt_add_one ((2 * size + step) / step)
      rw [hn'] at this
      push_cast at this
      have h2 : (n : K) < (2 * size + step) / step := by linarith
      rwa [lt_div_iff₀ hs] at h2
  obtain ⟨ny, hny, hy1, hy2⟩ := key ysize hy
  obtain ⟨nx, hnx, hx1, hx2⟩ := key xsize hx
  have e1 : (-ysize - step - ysize) / -step = (2 * ysize + step) / step := by
    rw [div_neg, ← neg_div]; congr 1; ring
  have e2 : (xsize + step - -xsize) / step = (2 * xsize + step) / step := by congr 1; ring
  refine ⟨(List.range (ny + 1)).map (fun i : Nat => ysize + (i : K) * -step),
    (List.range (nx + 1)).map (fun i : Nat => -xsize + (i : K) * step),
    ysize + ny * -step, -xsize + nx * step, ?_, ?_, ?_, ?_, ?_, ?_, ?_, ?_, ?_⟩
  · unfold gridArrays
    rw [npArange_axis _ _ _ (by linarith : -step ≠ 0), npArange_axis _ _ _ hs.ne', e1, e2, hny, hnx]
    rfl
  · simp
  · simp [List.range_succ]
  · linarith
  · linarith
  · simp
  · simp [List.range_succ]
  · linarith
  · linarith

/-- **C68** a zero step raises. -/
theorem C68_zero_step (ysize xsize : K) : gridArrays ysize xsize 0 = .error .zeroDivisionError := by
  unfold gridArrays npArange
  rw [if_pos neg_zero]; rfl

example : gridArrays (4 : ℚ) 3 1 = .ok ([4, 3, 2, 1, 0, -1, -2, -3, -4], [-3, -2, -1, 0, 1, 2, 3]) := by
  decide +kernel

/-- The last point overshoots when the step does not divide: -10 … 11. -/
example : gridArrays (10 : ℚ) 10 3 =
    .ok ([10, 7, 4, 1, -2, -5, -8, -11], [-10, -7, -4, -1, 2, 5, 8, 11]) := by
  decide +kernel

end axes

/-! ## C67: the age grid -/

/-- Spec: the point `(x, y)` of the polar map lies in the ejecta blanket of a crater (or in the
crater): it is a place on the moon and nearer than threshold times radius. -/
def Spec.Covers (cfg : EjCfg) (c : DatedCrater) (x y : ℝ) : Prop :=
  ∃ lat, (xy2latlon x y cfg.rad_moon).1 = some lat ∧
    surfaceDist c.toCrater lat (xy2latlon x y cfg.rad_moon).2 < c.rad * thresholdOf cfg c.toCrater

theorem inAgeMask_iff (cfg : EjCfg) (c : DatedCrater) (x y : ℝ) :
    inAgeMask cfg c (xy2latlon x y cfg.rad_moon) = true ↔ Spec.Covers cfg c x y := by
  unfold inAgeMask Spec.Covers
  cases h : (xy2latlon x y cfg.rad_moon).1 with
  | none => simp
  | some lat =>
    simp only [gcDist_surface, decide_eq_true_eq, Option.some.injEq, exists_eq_left']
    rfl

/-- The age a point ends with: the last covering crater in the list, or what it had. -/
theorem ageLoop_square (cfg : EjCfg) (g : Arr2 (Option ℝ × ℝ)) (hsq : g.rows = g.cols) :
    ∀ (l : List DatedCrater) (acc : Arr2 ℝ), acc.rows = g.rows → acc.cols = g.cols →
    ∃ r, ageLoop cfg g l acc = .ok r ∧ r.rows = g.rows ∧ r.cols = g.cols ∧
      ∀ i j, i < g.rows → j < g.cols → r.entry i j =
        l.foldl (fun a c => if inAgeMask cfg c (g.entry i j) then c.age else a) (acc.entry i j)
  | [], acc, h1, h2 => ⟨acc, rfl, h1, h2, fun _ _ _ _ => rfl⟩
  | c :: l, acc, h1, h2 => by
    have hb : ∀ n, broadcastDim n n = .ok n := fun n => by unfold broadcastDim; rw [if_pos rfl]
    obtain ⟨r, hr, hr1, hr2, hr3⟩ := ageLoop_square cfg g hsq l
      ⟨g.rows, g.cols, fun i j => if inAgeMask cfg c (g.entry (bIdx g.rows i) (bIdx g.cols j)) then
        c.age else acc.entry (bIdx acc.rows i) (bIdx acc.cols j)⟩ rfl rfl
    refine ⟨r, ?_, hr1, hr2, ?_⟩
    · rw [ageLoop]
      unfold npWhere
      simp only [h1, h2, hb, bind, Except.bind]
      rw [h1, h2] at hr
      exact hr
    · intro i j hi hj
      have e1 : bIdx g.rows i = i := by unfold bIdx; split <;> omega
      have e2 : bIdx g.cols j = j := by unfold bIdx; split <;> omega
      rw [hr3 i j hi hj]
      simp only [h1, h2, e1, e2, List.foldl_cons]

theorem fold_youngest (p : DatedCrater → Prop) [DecidablePred p] (t : ℝ) :
    ∀ (l : List DatedCrater) (a : ℝ), l.Pairwise (fun c d => d.age ≤ c.age) →
    (a = t ∨ ∀ c ∈ l, c.age ≤ a) →
    ((∀ c ∈ l, ¬ p c) → l.foldl (fun a c => if p c then c.age else a) a = a) ∧
    (∀ c ∈ l, p c → l.foldl (fun a c => if p c then c.age else a) a ≤ c.age) ∧
    ((∃ c ∈ l, p c) → ∃ c ∈ l, p c ∧ l.foldl (fun a c => if p c then c.age else a) a = c.age)
  | [], a, _, _ => by simp
  | c :: l, a, hp, ha => by
    obtain ⟨h1, hp⟩ := List.pairwise_cons.mp hp
    rw [List.foldl_cons]
    by_cases hc : p c
    · simp only [hc, if_true]
      obtain ⟨i1, i2, i3⟩ := fold_youngest p t l c.age hp (Or.inr h1)
      refine ⟨fun h => absurd hc (h c (by simp)), ?_, ?_⟩
      · intro d hd hpd
        rcases List.mem_cons.mp hd with rfl | hd
        · by_cases hex : ∃ e ∈ l, p e
          · obtain ⟨e, he, _, heq⟩ := i3 hex
            rw [heq]; exact h1 e he
          · have := i1 (fun e he hpe => hex ⟨e, he, hpe⟩)
            rw [this]
        · exact i2 d hd hpd
      · intro _
        by_cases hex : ∃ e ∈ l, p e
        · obtain ⟨e, he, hpe, heq⟩ := i3 hex
          exact ⟨e, by simp [he], hpe, heq⟩
        · exact ⟨c, by simp, hc, i1 (fun e he hpe => hex ⟨e, he, hpe⟩)⟩
    · simp only [hc, if_false]
      obtain ⟨i1, i2, i3⟩ := fold_youngest p t l a hp
        (ha.imp id (fun h d hd => h d (by simp [hd])))
      refine ⟨fun h => i1 (fun d hd => h d (by simp [hd])), ?_, ?_⟩
      · intro d hd hpd
        rcases List.mem_cons.mp hd with rfl | hd
        · exact absurd hpd hc
        · exact i2 d hd hpd
      · rintro ⟨d, hd, hpd⟩
        rcases List.mem_cons.mp hd with rfl | hd
        · exact absurd hpd hc
        · obtain ⟨e, he, h⟩ := i3 ⟨d, hd, hpd⟩
          exact ⟨e, by simp [he], h⟩

/-- **C67 (partial: square grids)** Full claim: for every grid (refuted below for rectangles).  On
a square grid, for every crater table and every order the sort may choose: the array has one entry
per grid point; a point covered by no crater keeps `timestart`; otherwise it holds the age of a
covering crater, and no covering crater is younger. -/
theorem C67_youngest_partial (cfg : EjCfg) (timestart : ℝ) (df sorted : List DatedCrater)
    (hperm : sorted.Perm df) (hsort : sorted.Pairwise (fun c d => d.age ≤ c.age))
    (ys xs : List ℝ) (hsq : ys.length = xs.length) :
    ∃ g, getAgeGrid cfg timestart sorted ys xs = .ok g ∧ g.rows = ys.length ∧
      g.cols = xs.length ∧ ∀ (i j : Nat) (y x : ℝ), ys[i]? = some y → xs[j]? = some x →
        ((∀ c ∈ df, ¬ Spec.Covers cfg c x y) → g.entry i j = timestart) ∧
        (∀ c ∈ df, Spec.Covers cfg c x y → g.entry i j ≤ c.age) ∧
        ((∃ c ∈ df, Spec.Covers cfg c x y) →
          ∃ c ∈ df, Spec.Covers cfg c x y ∧ g.entry i j = c.age) := by
  obtain ⟨r, hr, h1, h2, h3⟩ := ageLoop_square cfg (gridLatLon ys xs cfg.rad_moon) hsq sorted
    ⟨xs.length, ys.length, fun _ _ => timestart⟩ hsq.symm hsq
  refine ⟨r, hr, h1, h2, ?_⟩
  intro i j y x hy hx
  have hi := (List.getElem?_eq_some_iff.mp hy).1
  have hj := (List.getElem?_eq_some_iff.mp hx).1
  have he : (gridLatLon ys xs cfg.rad_moon).entry i j = xy2latlon x y cfg.rad_moon := by
    unfold gridLatLon
    simp [List.getD_eq_getElem?_getD, hx, hy]
  rw [h3 i j hi hj, he]
  obtain ⟨f1, f2, f3⟩ := fold_youngest
    (fun c => inAgeMask cfg c (xy2latlon x y cfg.rad_moon) = true) timestart sorted timestart hsort
    (Or.inl rfl)
  have hm : ∀ c, c ∈ sorted ↔ c ∈ df := fun c => hperm.mem_iff
  simp only [inAgeMask_iff, hm] at f1 f2 f3
  exact ⟨f1, f2, f3⟩

/-- **C67 refuted** for rectangular grids, **C68 refuted** likewise: with at least one crater and a
grid whose sides differ (neither being 1), the age grid raises `ValueError`. -/
theorem C67_refuted_rectangular (cfg : EjCfg) (timestart : ℝ) (c : DatedCrater)
    (rest : List DatedCrater) (ys xs : List ℝ) (hne : ys.length ≠ xs.length)
    (hy : ys.length ≠ 1) (hx : xs.length ≠ 1) :
    getAgeGrid cfg timestart (c :: rest) ys xs = .error .valueError := by
  have h : broadcastDim ys.length xs.length = .error .valueError := by
    unfold broadcastDim; rw [if_neg hne, if_neg hy, if_neg hx]
  unfold getAgeGrid
  rw [ageLoop]
  unfold npWhere
  change ((broadcastDim ys.length xs.length).bind _).bind _ = _
  rw [h]
  rfl

/-- **C67 refuted** for strips: a grid of one row and `n ≠ 1` columns gives `n` rows. -/
theorem C67_refuted_strip (cfg : EjCfg) (timestart : ℝ) (c : DatedCrater) (ys xs : List ℝ)
    (hy : ys.length = 1) (hx : xs.length ≠ 1) :
    ∃ g, getAgeGrid cfg timestart [c] ys xs = .ok g ∧ g.rows = xs.length ∧ g.rows ≠ ys.length := by
  have h1 : broadcastDim ys.length xs.length = .ok xs.length := by
    unfold broadcastDim; rw [if_neg (by omega), if_pos hy]
  have h2 : broadcastDim xs.length ys.length = .ok xs.length := by
    unfold broadcastDim; rw [if_neg (by omega), if_neg hx, if_pos hy]
  have h : ∃ f, getAgeGrid cfg timestart [c] ys xs = .ok ⟨xs.length, xs.length, f⟩ := by
    unfold getAgeGrid
    rw [ageLoop]
    unfold npWhere
    simp only [gridLatLon, h1, h2, bind, Except.bind]
    exact ⟨_, rfl⟩
  obtain ⟨f, hf⟩ := h
  exact ⟨_, hf, rfl, fun h => hx (h.trans hy)⟩

/-- **C68 refuted** (second half): the distance grid of a rectangular map raises for every
non-empty table with labels in range. -/
theorem C68_refuted_rectangular (cfg : EjCfg) (c : DatedCrater) (rest : List DatedCrater)
    (hl : c.label < rest.length + 1) (ys xs : List ℝ) (hne : ys.length ≠ xs.length) :
    getGcDistGrid cfg (c :: rest) ys xs = .error .valueError := by
  unfold getGcDistGrid
  rw [gcDistLoop, List.getElem?_replicate, if_pos (by simpa using hl)]
  have h : ∀ f, npAssign xs.length ys.length (⟨ys.length, xs.length, f⟩ : Arr2 (Option ℝ)) =
      .error .valueError := by
    intro f
    unfold npAssign
    rw [if_neg]
    simp only []
    rintro ⟨h1 | h1, h2 | h2⟩ <;> omega
  change (npAssign xs.length ys.length ⟨ys.length, xs.length, _⟩).bind _ = _
  rw [h]
  rfl

/-- **C68 (partial: square grids)** For a table with the labels `0, 1, …` of a fresh index, slice
`k` of the distance grid holds, at every grid point, the distance rule for crater `k`. -/
theorem C68_dist_grid_partial (cfg : EjCfg) (df : List DatedCrater) (ys xs : List ℝ)
    (hsq : ys.length = xs.length) (hlab : ∀ (k : Nat) c, df[k]? = some c → c.label = k) :
    ∃ gs, getGcDistGrid cfg df ys xs = .ok gs ∧ gs.length = df.length ∧
      ∀ (k : Nat) c, df[k]? = some c → ∃ g, gs[k]? = some g ∧ g.rows = ys.length ∧
        g.cols = xs.length ∧ ∀ (i j : Nat) y x, ys[i]? = some y → xs[j]? = some x →
          ∀ d, g.entry i j = some d ↔ ∃ lat, (xy2latlon x y cfg.rad_moon).1 = some lat ∧
            d = surfaceDist c.toCrater lat (xy2latlon x y cfg.rad_moon).2 ∧ c.rad ≤ d ∧
            d ≤ thresholdOf cfg c.toCrater * c.rad := by
  have loop : ∀ (l : List DatedCrater) (n : Nat) (acc : List (Arr2 (Option ℝ))),
      acc.length = n + l.length → (∀ a ∈ acc, a.rows = xs.length ∧ a.cols = ys.length) →
      (∀ (k : Nat) c, l[k]? = some c → c.label = n + k) →
      ∃ gs, gcDistLoop cfg (gridLatLon ys xs cfg.rad_moon) l acc = .ok gs ∧
        gs.length = acc.length ∧ (∀ k, k < n → gs[k]? = acc[k]?) ∧
        ∀ (k : Nat) c, l[k]? = some c → ∃ g, gs[n + k]? = some g ∧ g.rows = xs.length ∧
          g.cols = ys.length ∧ ∀ i j, i < ys.length → j < xs.length → g.entry i j =
            gridDist cfg c.toCrater ((gridLatLon ys xs cfg.rad_moon).entry i j).1
              ((gridLatLon ys xs cfg.rad_moon).entry i j).2 := by
    intro l
    induction l with
    | nil => intro n acc _ _ _; exact ⟨acc, rfl, rfl, fun _ _ => rfl, by simp⟩
    | cons c l ih =>
      intro n acc hlen hsh hlb
      have hcl : c.label = n := by simpa using hlb 0 c (by simp)
      have hin : n < acc.length := by simp at hlen; omega
      obtain ⟨hs1, hs2⟩ := hsh acc[n] (List.getElem_mem hin)
      obtain ⟨new, hnew⟩ : ∃ a : Arr2 (Option ℝ), a = ⟨xs.length, ys.length, fun i j =>
        gridDist cfg c.toCrater
          ((gridLatLon ys xs cfg.rad_moon).entry (bIdx ys.length i) (bIdx xs.length j)).1
          ((gridLatLon ys xs cfg.rad_moon).entry (bIdx ys.length i) (bIdx xs.length j)).2⟩ :=
        ⟨_, rfl⟩
      obtain ⟨gs, h1, h2, h3, h4⟩ := ih (n + 1) (acc.set n new) (by simp at hlen ⊢; omega)
        (by
          intro a ha
          rcases List.mem_or_eq_of_mem_set ha with h | rfl
          · exact hsh a h
          · rw [hnew]; exact ⟨rfl, rfl⟩)
        (by
          intro k d hk
          have := hlb (k + 1) d (by simpa using hk)
          omega)
      refine ⟨gs, ?_, by simpa using h2, ?_, ?_⟩
      · rw [gcDistLoop, hcl, List.getElem?_eq_getElem hin]
        simp only [hs1, hs2]
        have : npAssign xs.length ys.length (⟨(gridLatLon ys xs cfg.rad_moon).rows,
            (gridLatLon ys xs cfg.rad_moon).cols, fun i j => gridDist cfg c.toCrater
              ((gridLatLon ys xs cfg.rad_moon).entry i j).1
              ((gridLatLon ys xs cfg.rad_moon).entry i j).2⟩ : Arr2 (Option ℝ)) = .ok new := by
          unfold npAssign
          rw [if_pos ⟨Or.inl hsq, Or.inl hsq.symm⟩, hnew]
          rfl
        rw [this]
        exact h1
      · intro k hk
        rw [h3 k (by omega), List.getElem?_set_ne (by omega)]
      · intro k d hk
        cases k with
        | zero =>
          simp only [List.getElem?_cons_zero, Option.some.injEq] at hk
          subst hk
          refine ⟨new, ?_, ?_, ?_, ?_⟩
          · rw [Nat.add_zero, h3 n (by omega), List.getElem?_set_self hin]
          · rw [hnew]
          · rw [hnew]
          · intro i j hi hj
            have e1 : bIdx ys.length i = i := by unfold bIdx; split <;> omega
            have e2 : bIdx xs.length j = j := by unfold bIdx; split <;> omega
            rw [hnew]
            simp only [e1, e2]
        | succ k =>
          obtain ⟨g, hg, hg'⟩ := h4 k d (by simpa using hk)
          exact ⟨g, by rw [show n + (k + 1) = n + 1 + k by omega]; exact hg, hg'⟩
  obtain ⟨gs, h1, h2, _, h4⟩ := loop df 0
    (List.replicate df.length ⟨xs.length, ys.length, fun _ _ => some 0⟩) (by simp)
    (by intro a ha; rw [List.eq_of_mem_replicate ha]; exact ⟨rfl, rfl⟩)
    (by intro k c hk; rw [hlab k c hk]; omega)
  refine ⟨gs, h1, by simpa using h2, ?_⟩
  intro k c hk
  obtain ⟨g, hg, hg1, hg2, hg3⟩ := h4 k c hk
  refine ⟨g, by simpa using hg, by omega, by omega, ?_⟩
  intro i j y x hy hx d
  have hi := (List.getElem?_eq_some_iff.mp hy).1
  have hj := (List.getElem?_eq_some_iff.mp hx).1
  have he : (gridLatLon ys xs cfg.rad_moon).entry i j = xy2latlon x y cfg.rad_moon := by
    unfold gridLatLon
    simp [List.getD_eq_getElem?_getD, hx, hy]
  rw [hg3 i j hi hj, he]
  cases hlat : (xy2latlon x y cfg.rad_moon).1 with
  | none => simp [gridDist]
  | some lat => rw [C37_grid_rule_partial]; simp

/-- A crater at the pole, three billion years old, radius 1000 km. -/
noncomputable def oldPolar : DatedCrater := { poleCrater with rad := 1000000, age := 3, label := 0 }
/-- A younger one at the same place. -/
noncomputable def youngPolar : DatedCrater := { oldPolar with age := 1, label := 1 }

/-- At the pole the younger of two craters decides, whichever comes first in the table. -/
example : ∃ g, getAgeGrid EjCfg.default 4 [oldPolar, youngPolar] [0] [0] = .ok g ∧
    g.entry 0 0 = 1 := by
  obtain ⟨g, hg, _, _, h⟩ := C67_youngest_partial EjCfg.default 4 [youngPolar, oldPolar]
    [oldPolar, youngPolar] (List.Perm.swap _ _ _)
    (by simp [oldPolar, youngPolar]) [0] [0] rfl
  obtain ⟨-, h2, h3⟩ := h 0 0 0 0 rfl rfl
  have hlat : (xy2latlon 0 0 EjCfg.default.rad_moon).1 = some (-90) := by
    unfold xy2latlon npSqrt
    have : (0 : ℝ) < EjCfg.default.rad_moon := by norm_num [EjCfg.default]
    rw [if_neg (by nlinarith)]
    simp only [Option.map_some, Option.some.injEq]
    rw [show EjCfg.default.rad_moon ^ 2 - (0 : ℝ) ^ 2 - 0 ^ 2 = EjCfg.default.rad_moon ^ 2 by ring,
      Real.sqrt_sq this.le, div_self this.ne', Real.arcsin_one]
    unfold rad2deg
    field_simp
    norm_num
  have hcov : ∀ c : DatedCrater, c.lat = -90 → c.rad = 1000000 → c.isbasin = false →
      Spec.Covers EjCfg.default c 0 0 := by
    intro c h1 h2 h3
    refine ⟨-90, hlat, ?_⟩
    generalize (xy2latlon 0 0 EjCfg.default.rad_moon).2 = lon
    have e : direction c.lat c.lon = direction (-90) lon := by
      have : Real.cos (-90 * π / 180) = 0 := by
        rw [show (-90 : ℝ) * π / 180 = -(π / 2) by ring, Real.cos_neg, Real.cos_pi_div_two]
      rw [h1]; unfold direction
      simp only [this, zero_mul]
    have hne : direction (-90) lon ≠ 0 := by
      intro h0
      have := direction_norm (-90) lon
      rw [h0] at this; simp at this
    have ht : thresholdOf EjCfg.default c.toCrater = 4 := by
      unfold thresholdOf; rw [h3]; rfl
    unfold surfaceDist
    rw [e, InnerProductGeometry.angle_self hne, h2, ht]
    norm_num
  refine ⟨g, hg, le_antisymm (h2 youngPolar (by simp) (hcov _ rfl rfl rfl)) ?_⟩
  obtain ⟨c, hc, _, he⟩ := h3 ⟨youngPolar, by simp, hcov _ rfl rfl rfl⟩
  rw [he]
  simp only [List.mem_cons, List.not_mem_nil, or_false] at hc
  rcases hc with rfl | rfl <;> norm_num [oldPolar, youngPolar]

end MoonPIES
