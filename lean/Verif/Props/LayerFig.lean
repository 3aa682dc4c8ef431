import Verif.Spec.LayerFig
import Verif.Lemmas.Column
import Verif.Props.Agg
import Verif.Props.Rounding

/-!
# C117: layers in the figure of their distribution
-/

namespace MoonPIES

open Spec

variable {K : Type} [Field K] [LinearOrder K] [IsStrictOrderedRing K] [FloorRing K]

theorem rhe_half : roundHalfEven (1 / 2 : K) = 0 := by
  have hf : ⌊(1 / 2 : K)⌋ = 0 := by
    rw [Int.floor_eq_iff]; constructor <;> norm_num
  unfold roundHalfEven
  simp only [hf]
  norm_num

theorem round1_near (x : K) : |round1 x - x| ≤ 1 / 20 := by
  have h := roundHalfEven_close (x * 10)
  unfold round1
  rw [abs_le] at h ⊢
  constructor <;> linarith [h.1, h.2]

/-- Which values are not dropped. -/
theorem dropSmall_round (x : K) : dropSmall (some (round1 x)) =
    if 1 / 20 < x then some (round1 x) else none := by
  unfold dropSmall
  by_cases hx : 1 / 20 < x
  · rw [if_pos hx]
    have h0 : (1 / 2 : K) < x * 10 := by linarith
    have h : 1 ≤ roundHalfEven (x * 10) := by
      by_contra hc
      have h1 := roundHalfEven_close (x * 10)
      have h2 : roundHalfEven (x * 10) ≤ 0 := by omega
      have h2' : (roundHalfEven (x * 10) : K) ≤ 0 := by exact_mod_cast h2
      rw [abs_le] at h1
      linarith [h1.1]
    have h' : (1 : K) ≤ roundHalfEven (x * 10) := by exact_mod_cast h
    change (if round1 x < 1 / 10 then none else some (round1 x)) = _
    rw [if_neg]
    unfold round1
    rw [not_lt]
    linarith
  · rw [if_neg hx]
    have h0 : x * 10 ≤ 1 / 2 := by linarith [not_lt.1 hx]
    have h := roundHalfEven_mono h0
    rw [rhe_half] at h
    have h' : (roundHalfEven (x * 10) : K) ≤ 0 := by exact_mod_cast h
    change (if round1 x < 1 / 10 then none else some (round1 x)) = _
    rw [if_pos]
    unfold round1
    linarith

theorem round1_decimetres {x : K} (hx : 1 / 20 < x) : Decimetres x (round1 x) := by
  refine ⟨round1_near x, roundHalfEven (x * 10), ?_, rfl⟩
  have h := dropSmall_round x
  rw [if_pos hx] at h
  change (if round1 x < 1 / 10 then none else some (round1 x)) = _ at h
  split at h
  · cases h
  · rename_i hn
    unfold round1 at hn
    have : (1 : K) ≤ roundHalfEven (x * 10) := by linarith [not_lt.1 hn]
    exact_mod_cast this

/-- One row. -/
theorem cleanRow_spec (n : String) (r : LayerRow K) :
    (∃ x y t, r.ice = some x ∧ 1 / 20 < x ∧ r.depth = some y ∧ 1 / 20 < y ∧ r.time = some t ∧
      cleanRow (n, r) = some ⟨r.coldtrap, n, round1 x, round1 y, t,
        max (round1 y - round1 x) (1 / 10)⟩) ∨
    (¬ ((∃ x, r.ice = some x ∧ 1 / 20 < x) ∧ (∃ x, r.depth = some x ∧ 1 / 20 < x) ∧
      r.time ≠ none) ∧ cleanRow (n, r) = none) := by
  obtain ⟨ct, ice, depth, time⟩ := r
  unfold cleanRow
  simp only
  cases ice with
  | none => right; simp [dropSmall]
  | some x =>
    rw [Option.map_some, dropSmall_round]
    by_cases hx : 1 / 20 < x
    · rw [if_pos hx]
      cases depth with
      | none => right; simp [dropSmall]
      | some y =>
        rw [Option.map_some, dropSmall_round]
        by_cases hy : 1 / 20 < y
        · rw [if_pos hy]
          cases time with
          | none => right; simp
          | some t => left; exact ⟨x, y, t, rfl, hx, rfl, hy, rfl, rfl⟩
        · right
          rw [if_neg hy]
          refine ⟨?_, rfl⟩
          rintro ⟨-, ⟨y', hy1, hy2⟩, -⟩
          cases hy1
          exact hy hy2
    · right
      rw [if_neg hx]
      refine ⟨?_, rfl⟩
      rintro ⟨⟨x', hx1, hx2⟩, -, -⟩
      cases hx1
      exact hx hx2

open Classical in
/-- **C117** The cleaned table has one row for each layer of the named runs with more than 5 cm of
ice, at more than 5 cm depth, in the order of the table: ice and depth to the nearest 10 cm, and the
depth of the top of the ice within 10 cm, but no less than 10 cm. -/
theorem C117_layers (names news : List String) (hn : names.Nodup)
    (hlen : names.length = news.length) (hd : ∀ x ∈ news, x ∉ names)
    (layers : List (String × LayerRow K)) :
    List.Forall₂ (Shows names news) (layers.filter (fun r => DrawnLayer names r))
      (kdeClean names news layers) := by
  have hren : ∀ x ∈ names, RenamedTo names news x (renameOne (names.zip news) x) := by
    intro x hx
    have h := (C81_exact_partial names news hn hlen).2 (by
      intro i j u v _ h1 h2 _
      exact absurd (List.mem_of_getElem? h2) (hd u (List.mem_of_getElem? h1))) [(x, 0)]
    rw [renameRuns_eq, List.filter_cons_of_pos (by simpa using hx)] at h
    simp only [List.filter_nil, List.map_cons, List.map_nil] at h
    cases h with
    | cons h _ => exact h.1
  unfold kdeClean
  rw [renameRuns_eq]
  induction layers with
  | nil => exact .nil
  | cons r rest ih =>
    obtain ⟨n, r⟩ := r
    by_cases hm : n ∈ names
    · rw [List.filter_cons_of_pos (p := fun r : String × LayerRow K => decide (r.1 ∈ names))
        (by simpa using hm), List.map_cons, List.filterMap_cons]
      rcases cleanRow_spec (renameOne (names.zip news) n) r with
        ⟨x, y, t, h1, h2, h3, h4, h5, h6⟩ | ⟨h1, h2⟩
      · rw [h6, List.filter_cons_of_pos (by
          simp only [decide_eq_true_eq]
          exact ⟨hm, ⟨x, h1, h2⟩, ⟨y, h3, h4⟩, by rw [h5]; simp⟩)]
        refine .cons ⟨rfl, hren n hm, ⟨x, h1, round1_decimetres h2⟩, ⟨y, h3, round1_decimetres h4⟩,
          h5, ?_, le_max_right _ _⟩ ih
        intro i d hi hd' hid
        rw [h1] at hi
        rw [h3] at hd'
        cases hi
        cases hd'
        have a := round1_near x
        have b := round1_near y
        rw [abs_le] at a b
        rw [abs_le]
        rcases le_total (round1 y - round1 x) (1 / 10) with h | h
        · rw [max_eq_right h]
          constructor <;> linarith [a.1, a.2, b.1, b.2]
        · rw [max_eq_left h]
          constructor <;> linarith [a.1, a.2, b.1, b.2]
      · rw [h2, List.filter_cons_of_neg (by
          simp only [decide_eq_true_eq]
          exact fun h => h1 h.2)]
        exact ih
    · rw [List.filter_cons_of_neg (p := fun r : String × LayerRow K => decide (r.1 ∈ names))
        (by simpa using hm), List.filter_cons_of_neg (by
          simp only [decide_eq_true_eq]
          exact fun h => hm h.1)]
      exact ih

/-! ## Every 300th row -/

/-- `everyNth` with an offset of the count. -/
def nthFrom {α : Type} (k o : Nat) (l : List α) : List α :=
  ((l.zipIdx o).filter (fun p => p.2 % k = 0)).map (·.1)

theorem nthFrom_none {α : Type} (k : Nat) : ∀ (l : List α) (o : Nat), 0 < o % k →
    o % k + l.length ≤ k → nthFrom k o l = []
  | [], _, _, _ => rfl
  | x :: l, o, h0, hl => by
    rw [List.length_cons] at hl
    unfold nthFrom
    rw [List.zipIdx_cons, List.filter_cons_of_neg (by simp; omega)]
    cases l with
    | nil => rfl
    | cons y l =>
      rw [List.length_cons] at hl
      have hk : 0 < k := by omega
      have e : (o + 1) % k = o % k + 1 := by
        rw [Nat.add_mod, Nat.mod_eq_of_lt (a := 1) (by omega), Nat.mod_eq_of_lt (by omega)]
      exact nthFrom_none k (y :: l) (o + 1) (by omega) (by rw [e, List.length_cons]; omega)

theorem nthFrom_get {α : Type} (k : Nat) (hk : 0 < k) : ∀ (i : Nat) (l : List α) (o : Nat),
    o % k = 0 → (nthFrom k o l)[i]? = l[k * i]?
  | i, [], o, _ => by simp [nthFrom]
  | i, x :: rest, o, ho => by
    have hs : nthFrom k o (x :: rest) = x :: nthFrom k (o + k) (rest.drop (k - 1)) := by
      unfold nthFrom
      rw [List.zipIdx_cons, List.filter_cons_of_pos (by simpa using ho), List.map_cons]
      congr 1
      conv_lhs => rw [← List.take_append_drop (k - 1) rest]
      rw [List.zipIdx_append, List.filter_append, List.map_append]
      have h1 : ((((rest.take (k - 1)).zipIdx (o + 1)).filter (fun p => p.2 % k = 0)).map (·.1)) = [] := by
        rcases Nat.lt_or_ge 1 k with h | h
        · have e : (o + 1) % k = 1 := by
            rw [Nat.add_mod, ho, Nat.zero_add, Nat.mod_mod, Nat.mod_eq_of_lt h]
          exact nthFrom_none k _ _ (by omega) (by rw [e, List.length_take]; omega)
        · have : k - 1 = 0 := by omega
          rw [this]; rfl
      rw [h1, List.nil_append, List.length_take]
      rcases Nat.le_total (k - 1) rest.length with h | h
      · rw [Nat.min_eq_left h]
        rw [show o + 1 + (k - 1) = o + k by omega]
      · rw [List.drop_of_length_le h]; rfl
    rw [hs]
    cases i with
    | zero => rfl
    | succ i =>
      rw [List.getElem?_cons_succ, nthFrom_get k hk i _ _ (by rw [Nat.add_mod_right]; exact ho),
        List.getElem?_drop]
      have : k * (i + 1) = (k - 1 + k * i) + 1 := by rw [Nat.mul_add]; omega
      rw [this, List.getElem?_cons_succ]

theorem everyNth_get {α : Type} (k : Nat) (hk : 0 < k) (l : List α) (i : Nat) :
    (everyNth k l)[i]? = l[k * i]? := nthFrom_get k hk i l 0 (Nat.zero_mod k)

theorem everyNth_length {α : Type} (k : Nat) (hk : 0 < k) (l : List α) :
    (everyNth k l).length = (l.length + k - 1) / k := by
  have h : ∀ i, i < (everyNth k l).length ↔ k * i < l.length := by
    intro i
    have := everyNth_get k hk l i
    constructor
    · intro hi
      rw [List.getElem?_eq_getElem hi] at this
      exact (List.getElem?_eq_some_iff.1 this.symm).1
    · intro hi
      rw [List.getElem?_eq_getElem hi] at this
      exact (List.getElem?_eq_some_iff.1 this).1
  have h2 : ∀ i, i < (l.length + k - 1) / k ↔ k * i < l.length := by
    intro i
    rw [Nat.lt_iff_add_one_le, Nat.le_div_iff_mul_le hk, Nat.add_mul, Nat.mul_comm i k]
    omega
  have h3 := (h (everyNth k l).length).trans (h2 _).symm
  have h4 := (h ((l.length + k - 1) / k)).trans (h2 _).symm
  omega

omit [Field K] [LinearOrder K] [IsStrictOrderedRing K] [FloorRing K] in
/-- **C117** For a cold trap with up to 1000 such layers all are drawn, for one with more the first
and every 300th after it. -/
theorem C117_sample (rows : List (KdeRow K)) (trap : String) :
    ((rows.filter (fun r => r.coldtrap = trap)).length ≤ 1000 →
      kdeTrap rows trap = rows.filter (fun r => r.coldtrap = trap)) ∧
    (1000 < (rows.filter (fun r => r.coldtrap = trap)).length →
      (∀ i : Nat, (kdeTrap rows trap)[i]? = (rows.filter (fun r => r.coldtrap = trap))[300 * i]?) ∧
      (kdeTrap rows trap).length = ((rows.filter (fun r => r.coldtrap = trap)).length + 299) / 300) := by
  unfold kdeTrap
  simp only []
  constructor
  · intro h
    rw [if_neg (by omega)]
  · intro h
    rw [if_pos h]
    exact ⟨everyNth_get 300 (by norm_num) _, everyNth_length 300 (by norm_num) _⟩

/-- **C117** so one more layer can mean fewer drawn. -/
theorem C117_fewer : ∃ (rows : List (KdeRow ℚ)) (r : KdeRow ℚ) (trap : String),
    (kdeTrap rows trap).length = 1000 ∧ (kdeTrap (rows ++ [r]) trap).length = 4 := by
  obtain ⟨r, hr⟩ : ∃ r : KdeRow ℚ, r = ⟨"Faustini", "Yes", 1, 2, 3, 1⟩ := ⟨_, rfl⟩
  have hf : ∀ n, (List.replicate n r).filter (fun r => r.coldtrap = "Faustini") =
      List.replicate n r := by
    intro n
    rw [List.filter_replicate, if_pos (by rw [hr]; rfl)]
  refine ⟨List.replicate 1000 r, r, "Faustini", ?_, ?_⟩
  · rw [(C117_sample _ _).1 (by rw [hf, List.length_replicate]), hf, List.length_replicate]
  · rw [show List.replicate 1000 r ++ [r] = List.replicate 1001 r from List.replicate_succ'.symm]
    rw [((C117_sample _ _).2 (by rw [hf, List.length_replicate]; norm_num)).2, hf,
      List.length_replicate]

/-! ## Two runs -/

/-- Two runs with equally many layers in the table of one cold trap. -/
def twoRuns (trap a b : String) (x y : List (K × K × K)) : List (AggKey × List K) :=
  [((trap, a, "ice"), x.map (·.1)), ((trap, a, "depth"), x.map (·.2.1)),
    ((trap, a, "time"), x.map (·.2.2)), ((trap, b, "ice"), y.map (·.1)),
    ((trap, b, "depth"), y.map (·.2.1)), ((trap, b, "time"), y.map (·.2.2))]

/-- One layer as a row. -/
def rowAt (trap a : String) (x : List (K × K × K)) (j : Nat) : String × LayerRow K :=
  (a, ⟨trap, x[j]?.map (·.1), x[j]?.map (·.2.1), x[j]?.map (·.2.2)⟩)

omit [IsStrictOrderedRing K] in
theorem twoRuns_rows (trap a b : String) (hab : a ≠ b) (x y : List (K × K × K))
    (hl : x.length = y.length) :
    (flattenAgg ["ice", "depth", "time"] [(trap, a), (trap, b)] (twoRuns trap a b x y)).map layerRow =
      (List.range x.length).flatMap (fun j => [rowAt trap a x j, rowAt trap b y j]) := by
  have hlen : tableLen (twoRuns trap a b x y) = x.length := by
    simp [tableLen, twoRuns, hl]
  unfold flattenAgg
  rw [hlen, List.map_flatMap]
  apply List.flatMap_congr
  intro j hj
  have hj := List.mem_range.1 hj
  have hj' : j < y.length := by omega
  have e1 : cell (twoRuns trap a b x y) (trap, a, "ice") j = some x[j].1 := by
    simp [cell, twoRuns, kget, List.getElem?_eq_getElem hj]
  have e2 : cell (twoRuns trap a b x y) (trap, a, "depth") j = some x[j].2.1 := by
    simp [cell, twoRuns, kget, List.getElem?_eq_getElem hj]
  have e3 : cell (twoRuns trap a b x y) (trap, a, "time") j = some x[j].2.2 := by
    simp [cell, twoRuns, kget, List.getElem?_eq_getElem hj]
  have f1 : cell (twoRuns trap a b x y) (trap, b, "ice") j = some y[j].1 := by
    simp [cell, twoRuns, kget, hab, List.getElem?_eq_getElem hj']
  have f2 : cell (twoRuns trap a b x y) (trap, b, "depth") j = some y[j].2.1 := by
    simp [cell, twoRuns, kget, hab, List.getElem?_eq_getElem hj']
  have f3 : cell (twoRuns trap a b x y) (trap, b, "time") j = some y[j].2.2 := by
    simp [cell, twoRuns, kget, hab, List.getElem?_eq_getElem hj']
  simp only [List.filterMap_cons, List.filterMap_nil, List.map_cons, List.map_nil, e1, e2, e3, f1,
    f2, f3, List.all_cons, Option.isNone_some, Bool.false_and, Bool.false_eq_true, if_false]
  simp [layerRow, rowAt, List.getElem?_eq_getElem hj, List.getElem?_eq_getElem hj']

theorem pairs_even {α : Type} (f h : Nat → α) : ∀ (n o j : Nat), j < n →
    ((List.range' o n).flatMap (fun j => [f j, h j]))[2 * j]? = some (f (o + j))
  | 0, _, _, hj => by omega
  | n + 1, o, j, hj => by
    rw [List.range'_succ, List.flatMap_cons]
    cases j with
    | zero => rfl
    | succ j =>
      rw [show 2 * (j + 1) = 2 * j + 2 by ring]
      change ((List.range' (o + 1) n).flatMap (fun j => [f j, h j]))[2 * j]? = _
      rw [pairs_even f h n (o + 1) j (by omega)]
      congr 2; omega

open Classical in
/-- **C117** If two runs have equally many layers for a cold trap, more than 500, and all are thick
enough to be drawn, then only layers of the first run are drawn: the rows of the two alternate and
300 is even. -/
theorem C117_one_run (trap a b u v : String) (hab : a ≠ b) (hu : u ≠ a ∧ u ≠ b)
    (hv : v ≠ a ∧ v ≠ b) (x y : List (K × K × K)) (hl : x.length = y.length)
    (hn : 500 < x.length) (hx : ∀ p ∈ x, 1 / 20 < p.1 ∧ 1 / 20 < p.2.1)
    (hy : ∀ p ∈ y, 1 / 20 < p.1 ∧ 1 / 20 < p.2.1) :
    (kdeFigure [a, b] [u, v] [(trap, a), (trap, b)] (twoRuns trap a b x y) trap).length =
        (2 * x.length + 299) / 300 ∧
      ∀ k ∈ kdeFigure [a, b] [u, v] [(trap, a), (trap, b)] (twoRuns trap a b x y) trap,
        k.runs = u := by
  obtain ⟨rows, hrows⟩ : ∃ t, t = (List.range x.length).flatMap
    (fun j => [rowAt trap a x j, rowAt trap b y j]) := ⟨_, rfl⟩
  obtain ⟨clean, hclean⟩ : ∃ t, t = kdeClean [a, b] [u, v] rows := ⟨_, rfl⟩
  have hdraw : ∀ r ∈ rows, DrawnLayer [a, b] r ∧ r.2.coldtrap = trap := by
    intro r hr
    rw [hrows] at hr
    obtain ⟨j, hj, hr⟩ := List.mem_flatMap.1 hr
    have hj := List.mem_range.1 hj
    have hj' : j < y.length := by omega
    have h1 := hx _ (List.getElem_mem hj)
    have h2 := hy _ (List.getElem_mem hj')
    rcases List.mem_cons.1 hr with rfl | hr
    · refine ⟨⟨by simp [rowAt], ?_, ?_, ?_⟩, rfl⟩
      · exact ⟨_, by unfold rowAt; rw [List.getElem?_eq_getElem hj]; rfl, h1.1⟩
      · exact ⟨_, by unfold rowAt; rw [List.getElem?_eq_getElem hj]; rfl, h1.2⟩
      · unfold rowAt; rw [List.getElem?_eq_getElem hj]; simp
    · rcases List.mem_cons.1 hr with rfl | hr
      · refine ⟨⟨by simp [rowAt], ?_, ?_, ?_⟩, rfl⟩
        · exact ⟨_, by unfold rowAt; rw [List.getElem?_eq_getElem hj']; rfl, h2.1⟩
        · exact ⟨_, by unfold rowAt; rw [List.getElem?_eq_getElem hj']; rfl, h2.2⟩
        · unfold rowAt; rw [List.getElem?_eq_getElem hj']; simp
      · cases hr
  have hs := C117_layers [a, b] [u, v] (by simp [hab]) rfl (by
    intro w hw
    rcases List.mem_cons.1 hw with rfl | hw
    · simp [hu.1, hu.2]
    · rw [List.mem_singleton.1 hw]; simp [hv.1, hv.2]) rows
  rw [List.filter_eq_self.2 (fun r hr => by simpa using (hdraw r hr).1), ← hclean] at hs
  have hlen : rows.length = 2 * x.length := by
    rw [hrows]; simp [List.length_flatMap, Nat.mul_comm]
  have hcl : clean.length = 2 * x.length := by rw [← hs.length_eq, hlen]
  have hct : clean.filter (fun r => r.coldtrap = trap) = clean := by
    apply List.filter_eq_self.2
    intro k hk
    obtain ⟨i, hi⟩ := List.mem_iff_getElem?.1 hk
    have hil := (List.getElem?_eq_some_iff.1 hi).1
    have hil' : i < rows.length := by rw [hs.length_eq]; exact hil
    have := (forall₂_iff_getElem?.1 hs).2 i _ k (List.getElem?_eq_getElem hil') hi
    simp only [decide_eq_true_eq]
    rw [this.trap, (hdraw _ (List.getElem_mem hil')).2]
  have hfig : kdeFigure [a, b] [u, v] [(trap, a), (trap, b)] (twoRuns trap a b x y) trap =
      kdeTrap clean trap := by
    unfold kdeFigure
    rw [twoRuns_rows trap a b hab x y hl, ← hrows, ← hclean]
  obtain ⟨s1, s2⟩ := (C117_sample clean trap).2 (by rw [hct, hcl]; omega)
  rw [hfig]
  rw [hct] at s1 s2
  refine ⟨by rw [s2, hcl], ?_⟩
  intro k hk
  obtain ⟨i, hi⟩ := List.mem_iff_getElem?.1 hk
  rw [s1 i] at hi
  have hil := (List.getElem?_eq_some_iff.1 hi).1
  have hj : 150 * i < x.length := by omega
  have hr : rows[300 * i]? = some (rowAt trap a x (150 * i)) := by
    rw [hrows, List.range_eq_range', show 300 * i = 2 * (150 * i) by omega,
      pairs_even _ _ _ _ _ hj, Nat.zero_add]
  have := (forall₂_iff_getElem?.1 hs).2 _ _ k hr hi
  obtain ⟨m, m1, m2⟩ := this.run
  match m, m1, m2 with
  | 0, _, m2 => cases m2; rfl
  | 1, m1, _ =>
    have : b = a := by simpa [rowAt] using m1
    exact absurd this.symm hab
  | m + 2, m1, _ => simp at m1

/-- C117 for two runs of 501 layers of 2 m. -/
example : ∀ k ∈ kdeFigure (K := ℚ) ["moonpies", "no_bsed"] ["Yes", "No"]
    [("Faustini", "moonpies"), ("Faustini", "no_bsed")]
    (twoRuns "Faustini" "moonpies" "no_bsed" (List.replicate 501 (2, 5, 0))
      (List.replicate 501 (2, 5, 0))) "Faustini", k.runs = "Yes" :=
  (C117_one_run _ _ _ _ _ (by decide) (by decide) (by decide) _ _ rfl
    (by rw [List.length_replicate]; norm_num) (by
    intro p hp; rw [List.eq_of_mem_replicate hp]; norm_num) (by
    intro p hp; rw [List.eq_of_mem_replicate hp]; norm_num)).2

/-- C117 for four layers of which one is too thin and one of another run. -/
example : kdeClean (K := ℚ) ["moonpies", "no_bsed"] ["Yes", "No"]
    [("moonpies", ⟨"Faustini", some (13 / 100), some 5, some 1⟩),
      ("moonpies", ⟨"Faustini", some (1 / 25), some 5, some 1⟩),
      ("old", ⟨"Faustini", some 2, some 5, some 1⟩),
      ("no_bsed", ⟨"Faustini", some 2, some 2, some 1⟩)] =
    [⟨"Faustini", "Yes", 1 / 10, 5, 1, 49 / 10⟩, ⟨"Faustini", "No", 2, 2, 1, 1 / 10⟩] := by
  decide +kernel

end MoonPIES
