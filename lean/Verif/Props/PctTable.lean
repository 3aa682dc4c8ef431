import Verif.Spec.PctTable
import Verif.Props.StratFig
import Verif.Lemmas.MeltFrames
import Verif.Lemmas.StratFl

/-!
# C135: the tables of ice percentages show the layers of their files
-/

namespace MoonPIES

open Spec

variable {K : Type} [Field K] [LinearOrder K] [IsStrictOrderedRing K] [FloorRing K]

/-! ## Helpers -/

theorem sig3_small (n : Int) (h0 : 0 ≤ n) (h : n < 1000) : sig3 ((n : K) / 100) = (n : K) / 100 := by
  unfold sig3
  by_cases hx : (n : K) / 100 = 0
  · rw [if_pos hx, hx]
  rw [if_neg hx]
  simp only []
  obtain ⟨h1, -⟩ := log10_spec ((n : K) / 100) hx
  obtain ⟨e, he⟩ : ∃ t, t = Int.log 10 |(n : K) / 100| := ⟨_, rfl⟩
  rw [← he] at h1 ⊢
  have hn0 : (0 : K) ≤ n := by exact_mod_cast h0
  have hn1 : (n : K) < 1000 := by exact_mod_cast h
  rw [abs_of_nonneg (by positivity)] at h1
  have he0 : e ≤ 0 := by
    by_contra hc
    have : (10 : K) ^ (1 : Int) ≤ 10 ^ e := zpow_le_zpow_right₀ (by norm_num) (by omega)
    norm_num at this
    linarith
  obtain ⟨k, hk⟩ : ∃ k : Nat, 2 - e = (k : Int) + 2 := ⟨(-e).toNat, by omega⟩
  have hp : (10 : K) ^ (2 - e) = 10 ^ k * 100 := by
    rw [hk, zpow_add₀ (by norm_num), zpow_natCast]; norm_num
  rw [hp]
  have e1 : (n : K) / 100 * (10 ^ k * 100) = ((n * 10 ^ k : Int) : K) := by push_cast; ring
  rw [e1, roundHalfEven_int]
  push_cast
  have : (10 : K) ^ k ≠ 0 := by positivity
  field_simp

theorem sig3_large (x : K) (h0 : 10 ≤ x) (h : x < 100) : sig3 x = (roundHalfEven (x * 10) : K) / 10 := by
  have hx : x ≠ 0 := by linarith
  unfold sig3
  rw [if_neg hx]
  simp only []
  obtain ⟨h1, h2⟩ := log10_spec x hx
  obtain ⟨e, he⟩ : ∃ t, t = Int.log 10 |x| := ⟨_, rfl⟩
  rw [← he] at h1 h2 ⊢
  rw [abs_of_nonneg (by linarith)] at h1 h2
  have : e = 1 := by
    by_contra hc
    rcases lt_or_gt_of_ne hc with hc | hc
    · have : (10 : K) ^ (e + 1) ≤ 10 ^ (1 : Int) := zpow_le_zpow_right₀ (by norm_num) (by omega)
      norm_num at this
      linarith
    · have : (10 : K) ^ (2 : Int) ≤ 10 ^ e := zpow_le_zpow_right₀ (by norm_num) (by omega)
      norm_num at this
      linarith
  subst this
  norm_num

theorem sig3_hundred : sig3 (100 : K) = 100 := by
  unfold sig3
  rw [if_neg (by norm_num)]
  simp only []
  have : Int.log 10 |(100 : K)| = 2 := by
    have h : |(100 : K)| = ((10 : Nat) : K) ^ (2 : Int) := by norm_num
    rw [h, Int.log_zpow (by norm_num)]
  rw [this]
  have : roundHalfEven (100 * 10 ^ ((2 : Int) - 2) : K) = 100 := by
    have := roundHalfEven_int (K := K) 100
    norm_num at this ⊢
    exact this
  rw [this]
  norm_num

/-- The shown percentage in closed form. -/
theorem shown_eq (x : K) (h0 : 0 ≤ x) (h : x ≤ 100) :
    sig3 (dec2 x) = if dec2 x < 10 then dec2 x else (roundHalfEven (dec2 x * 10) : K) / 10 := by
  obtain ⟨n, hn⟩ : ∃ t, t = roundHalfEven (x * 100) := ⟨_, rfl⟩
  have n0 : 0 ≤ n := hn ▸ roundHalfEven_nonneg _ (by positivity)
  have n1 : n ≤ 10000 := hn ▸ roundHalfEven_le _ _ (by push_cast; linarith)
  have hd : dec2 x = (n : K) / 100 := by unfold dec2; rw [hn]
  rw [hd]
  by_cases hs : n < 1000
  · have : (n : K) / 100 < 10 := by
      have : (n : K) < 1000 := by exact_mod_cast hs
      linarith
    rw [if_pos this, sig3_small n n0 hs]
  · have h10 : (10 : K) ≤ (n : K) / 100 := by
      have : (1000 : K) ≤ n := by exact_mod_cast (not_lt.1 hs)
      linarith
    rw [if_neg (not_lt.2 h10)]
    by_cases hl : n < 10000
    · refine sig3_large _ h10 ?_
      have : (n : K) < 10000 := by exact_mod_cast hl
      linarith
    · have : n = 10000 := by omega
      subst this
      have e : ((10000 : Int) : K) / 100 = 100 := by norm_num
      rw [e, sig3_hundred]
      have := roundHalfEven_int (K := K) 1000
      rw [show (100 : K) * 10 = ((1000 : Int) : K) by norm_num, this]
      norm_num

theorem dec2_near (x : K) : |dec2 x - x| ≤ 1 / 200 := by
  have h := abs_le.1 (roundHalfEven_close (x * 100))
  unfold dec2
  rw [abs_le]
  constructor <;> linarith [h.1, h.2]

theorem dec2_nearest (x : K) : NearestDec 2 x (dec2 x) := by
  refine ⟨⟨roundHalfEven (x * 100), by unfold dec2; norm_num⟩, ?_⟩
  intro m
  by_cases hm : m = roundHalfEven (x * 100)
  · subst hm
    unfold dec2
    norm_num
  · have h := abs_le.1 (dec2_near x)
    have h2 : (1 : K) / 100 ≤ |(m : K) / 10 ^ 2 - dec2 x| := by
      have : (1 : K) ≤ |((m - roundHalfEven (x * 100) : Int) : K)| := by
        have : (1 : Int) ≤ |m - roundHalfEven (x * 100)| := Int.one_le_abs (by omega)
        exact_mod_cast this
      have e : (m : K) / 10 ^ 2 - dec2 x = ((m - roundHalfEven (x * 100) : Int) : K) / 100 := by
        unfold dec2; push_cast; ring
      rw [e, abs_div, abs_of_pos (by norm_num : (0 : K) < 100)]
      linarith
    have h3 := abs_sub_abs_le_abs_sub ((m : K) / 10 ^ 2 - dec2 x) (x - dec2 x)
    have e : (m : K) / 10 ^ 2 - dec2 x - (x - dec2 x) = (m : K) / 10 ^ 2 - x := by ring
    rw [e] at h3
    have h4 := dec2_near x
    rw [abs_sub_comm] at h4
    have h5 := dec2_near x
    linarith

/-- **C135** A percentage is shown as the nearest number with two decimals below 10; from there on with one
decimal, off by at most 0.055. -/
theorem C135_shown (x : K) (h0 : 0 ≤ x) (h : x ≤ 100) : PctShown x (sig3 (dec2 x)) := by
  have hnear := abs_le.1 (dec2_near x)
  have n0 : 0 ≤ roundHalfEven (x * 100) := roundHalfEven_nonneg _ (by positivity)
  have n1 : roundHalfEven (x * 100) ≤ 10000 := roundHalfEven_le _ _ (by push_cast; linarith)
  have d0 : 0 ≤ dec2 x := by
    unfold dec2
    exact div_nonneg (by exact_mod_cast n0) (by norm_num)
  have d1 : dec2 x ≤ 100 := by
    unfold dec2
    have : (roundHalfEven (x * 100) : K) ≤ 10000 := by exact_mod_cast n1
    linarith
  rw [shown_eq x h0 h]
  refine ⟨?_, ?_, ?_, ?_⟩
  · split
    · exact d0
    · have : 0 ≤ roundHalfEven (dec2 x * 10) := roundHalfEven_nonneg _ (by positivity)
      exact div_nonneg (by exact_mod_cast this) (by norm_num)
  · split
    · exact d1
    · have : roundHalfEven (dec2 x * 10) ≤ 1000 := roundHalfEven_le _ _ (by push_cast; linarith)
      have : (roundHalfEven (dec2 x * 10) : K) ≤ 1000 := by exact_mod_cast this
      linarith
  · intro hx
    rw [if_pos (by
      have : roundHalfEven (x * 100) ≤ 999 := roundHalfEven_le_of_lt (by push_cast; linarith)
      have : (roundHalfEven (x * 100) : K) ≤ 999 := by exact_mod_cast this
      unfold dec2
      linarith)]
    exact dec2_nearest x
  · intro hx
    by_cases hd : dec2 x < 10
    · exfalso
      -- the tie 9.995 goes to the even 1000
      have hlt : roundHalfEven (x * 100) < 1000 := by
        by_contra hc
        have : (1000 : K) ≤ roundHalfEven (x * 100) := by exact_mod_cast not_lt.1 hc
        unfold dec2 at hd
        linarith
      have hm := roundHalfEven_mono (x := ((1999 : K) / 200 * 100)) (y := x * 100) (by linarith)
      have : roundHalfEven ((1999 : K) / 200 * 100) = 1000 := by
        have hf : ⌊(1999 : K) / 200 * 100⌋ = 999 := by
          rw [Int.floor_eq_iff]
          norm_num
        unfold roundHalfEven
        rw [hf]
        norm_num
      omega
    · rw [if_neg hd]
      refine ⟨⟨_, rfl⟩, ?_⟩
      have h2 := abs_le.1 (roundHalfEven_close (dec2 x * 10))
      rw [abs_le]
      constructor <;> linarith [h2.1, h2.2, hnear.1, hnear.2]

/-- **C135** More ice is never shown as a smaller percentage. -/
theorem C135_monotone (x y : K) (h0 : 0 ≤ x) (hxy : x ≤ y) (h : y ≤ 100) :
    sig3 (dec2 x) ≤ sig3 (dec2 y) := by
  rw [shown_eq x h0 (le_trans hxy h), shown_eq y (le_trans h0 hxy) h]
  have hd : dec2 x ≤ dec2 y := by
    have : roundHalfEven (x * 100) ≤ roundHalfEven (y * 100) := roundHalfEven_mono (by linarith)
    have : (roundHalfEven (x * 100) : K) ≤ roundHalfEven (y * 100) := by exact_mod_cast this
    unfold dec2
    linarith
  have hm : (roundHalfEven (dec2 x * 10) : K) ≤ roundHalfEven (dec2 y * 10) := by
    exact_mod_cast roundHalfEven_mono (by linarith)
  by_cases h1 : dec2 x < 10
  · rw [if_pos h1]
    by_cases h2 : dec2 y < 10
    · rw [if_pos h2]; exact hd
    · rw [if_neg h2]
      have : (100 : Int) ≤ roundHalfEven (dec2 y * 10) := by
        have := roundHalfEven_mono (x := ((100 : Int) : K)) (y := dec2 y * 10) (by push_cast; linarith)
        rwa [roundHalfEven_int] at this
      have : (100 : K) ≤ roundHalfEven (dec2 y * 10) := by exact_mod_cast this
      linarith
  · rw [if_neg h1, if_neg (by linarith)]
    linarith

/-- **C135, refuted** Three digits of the percentage: 12.746 % is shown as 12.8 %, because it is rounded
twice. -/
theorem C135_digits_refuted : ∃ x : ℚ, 0 ≤ x ∧ x ≤ 100 ∧ ¬ NearestDec 1 x (sig3 (dec2 x)) ∧
    NearestDec 1 x (127 / 10) ∧ sig3 (dec2 x) = 128 / 10 := by
  have e : sig3 (dec2 (12746 / 1000 : ℚ)) = 128 / 10 := by decide +kernel
  refine ⟨12746 / 1000, by norm_num, by norm_num, ?_, ?_, e⟩
  · rw [e]
    rintro ⟨-, h⟩
    have := h 127
    norm_num [abs_of_pos, abs_of_neg] at this
  · refine ⟨⟨127, by norm_num⟩, ?_⟩
    intro m
    rw [show |(127 / 10 : ℚ) - 12746 / 1000| = 46 / 1000 by norm_num [abs_of_neg]]
    rcases le_or_gt m 127 with hm | hm
    · have : (m : ℚ) ≤ 127 := by exact_mod_cast hm
      rw [abs_of_nonpos (by linarith)]
      linarith
    · have : (128 : ℚ) ≤ m := by exact_mod_cast hm
      rw [abs_of_nonneg (by linarith)]
      linarith

theorem colShown_pad (pcts : List (Option K)) (n : Nat)
    (h : ∀ x, some x ∈ pcts → 0 ≤ x ∧ x ≤ 100) :
    ColShown pcts ((pcts ++ List.replicate n none).map showPct) := by
  refine ⟨by simp, ?_, ?_⟩
  · intro i x hx
    have hi := (List.getElem?_eq_some_iff.1 hx).1
    refine ⟨_, ?_, C135_shown x (h x (List.mem_of_getElem? hx)).1 (h x (List.mem_of_getElem? hx)).2⟩
    rw [List.getElem?_map, List.getElem?_append_left hi, hx]
    rfl
  · intro i y hy
    rw [List.getElem?_map] at hy
    by_cases hi : i < pcts.length
    · rw [List.getElem?_append_left hi, List.getElem?_eq_getElem hi] at hy
      cases hc : pcts[i] with
      | none => rw [hc] at hy; simp [showPct] at hy
      | some x => exact ⟨x, by rw [List.getElem?_eq_getElem hi, hc]⟩
    · rw [List.getElem?_append_right (by omega), List.getElem?_replicate] at hy
      split at hy <;> simp [showPct] at hy

theorem le_foldl_max (l : List Nat) : ∀ a, a ≤ l.foldl max a ∧ ∀ x ∈ l, x ≤ l.foldl max a := by
  induction l with
  | nil => intro a; simp
  | cons y l ih =>
    intro a
    rw [List.foldl_cons]
    obtain ⟨h1, h2⟩ := ih (max a y)
    refine ⟨le_trans (le_max_left _ _) h1, ?_⟩
    intro x hx
    rcases List.mem_cons.1 hx with rfl | hx
    · exact le_trans (le_max_right _ _) h1
    · exact h2 x hx

/-- The table as read. -/
theorem readPct_ok {t : List ((String × Int × String) × List (Option K))} (ht : t ≠ []) :
    ∃ df n, readPct t = .ok df ∧ df = t.map (fun c =>
      ((c.1.1, toString c.1.2.1, c.1.2.2), c.2 ++ List.replicate (n - c.2.length) none)) ∧
      ∀ c ∈ t, c.2.length ≤ n := by
  refine ⟨_, (t.map (·.2.length)).foldl max 0, ?_, rfl, ?_⟩
  · unfold readPct
    rw [if_neg (by simpa using ht)]
  · intro c hc
    exact (le_foldl_max _ 0).2 _ (List.mem_map_of_mem (f := fun c => c.2.length) hc)

/-- Every file of a figure that was drawn has its column in the table. -/
theorem icepct_of_load {draw : List (StratRow K) → Except PyErr (Drawn K)}
    {sortDepth : List (CleanRow K) → List (CleanRow K)}
    {load : String → Int → String → Option (List (StratRow K))} {runs : List String} {seeds : List Int}
    {traps : List String} {fig : StratFigure K}
    (h : stratFigure draw sortDepth load runs seeds traps = .ok fig) {run : String} {seed : Int}
    {trap : String} (hr : run ∈ runs) (hs : seed ∈ seeds) (ht : trap ∈ traps)
    {table : List (StratRow K)} (hl : load run seed trap = some table) :
    ∃ d, draw table = .ok d ∧ ((run, seed, trap), (sortDepth d.clean).map (·.icepct)) ∈ fig.icepct := by
  cases hd : draw table with
  | error e =>
    exfalso
    obtain ⟨r, hr⟩ := List.mem_iff_getElem?.1 hr
    obtain ⟨s, hs⟩ := List.mem_iff_getElem?.1 hs
    obtain ⟨i, hi⟩ := List.mem_iff_getElem?.1 ht
    obtain ⟨e', he⟩ := (C120_fails draw sortDepth load runs seeds traps).2
      (.inr (.inr ⟨r, s, i, table, ⟨run, seed, trap, hr, hs, hi, hl⟩, e, hd⟩))
    rw [h] at he
    cases he
  | ok d => exact ⟨d, rfl, ((C120_percentages h).2 run seed trap _).2 ⟨hr, hs, ht, table, d, hl, hd, rfl⟩⟩

/-- **C135** The percentages of the files a run writes lie between 0 and 100. -/
theorem C135_written {hash : String → Int} {sortDepth : List (CleanRow K) → List (CleanRow K)}
    {sortDiam : SizeTable K → SizeTable K} (h1 : SortsBy (fun r => r.depth) sortDepth)
    (h2 : SortsBy (fun r : String × K => r.2) sortDiam) {cdf : SizeTable K} {minThick : K}
    {table : List (StratRow K)} (hw : Written cdf table) {d : Drawn K}
    (hd : plotColumn hash sortDepth sortDiam cdf minThick table = .ok d) :
    ∀ x, some x ∈ (sortDepth d.clean).map (·.icepct) → 0 ≤ x ∧ x ≤ 100 := by
  obtain ⟨thickMin, tol, age, steps, w1, w2, w3, w4⟩ := hw
  obtain ⟨-, k⟩ := C86_column_partial hash h1 h2 cdf minThick thickMin tol age steps w1 w2 w3 table w4
  obtain ⟨-, hc, -⟩ := k d hd
  intro x hx
  obtain ⟨c, hcm, hcx⟩ := List.mem_map.1 hx
  have hcm := (h1 d.clean).1.mem_iff.1 hcm
  rw [hc] at hcm
  obtain ⟨r, hr, rfl⟩ := List.mem_map.1 hcm
  injection hcx with hcx
  obtain ⟨hi, he⟩ := strat_nonneg w2 w4 r (List.mem_filter.1 hr).1
  rw [← hcx]
  constructor
  · positivity
  · rcases (add_nonneg hi he).eq_or_lt with h | h
    · rw [← h]; simp
    · rw [div_le_iff₀ h]; linarith

/-- **C135** The table of Figure 7: a column for each file and no other, each showing the layers of its
file from the top down, all of the same length. -/
theorem C135_fig7 {draw : List (StratRow K) → Except PyErr (Drawn K)}
    {sortDepth : List (CleanRow K) → List (CleanRow K)}
    {load : String → Int → String → Option (List (StratRow K))} {out : List (PctCol K)}
    (h : icePctFig7 draw sortDepth load = .ok out)
    (hp : ∀ run seed trap table d, load run seed trap = some table → draw table = .ok d → ∀ x, some x ∈ (sortDepth d.clean).map (·.icepct) →
      0 ≤ x ∧ x ≤ 100) :
    (∀ seed ∈ [(13 : Int), 8, 1], ∀ trap ∈ ["Faustini", "Haworth", "Cabeus"], ∀ table,
      load "moonpies" seed trap = some table → ∃ d cells, draw table = .ok d ∧
        (("moonpies", toString seed, trap), cells) ∈ out ∧
        ColShown ((sortDepth d.clean).map (·.icepct)) cells) ∧
    (∀ c ∈ out, ∃ seed ∈ [(13 : Int), 8, 1], ∃ trap ∈ ["Faustini", "Haworth", "Cabeus"], ∃ table,
      load "moonpies" seed trap = some table ∧ c.1 = ("moonpies", toString seed, trap)) ∧
    ∃ n, ∀ c ∈ out, c.2.length = n := by
  unfold icePctFig7 at h
  obtain ⟨fig, hfig, h⟩ := bind_ok_inv h
  obtain ⟨df, hdf, h⟩ := bind_ok_inv h
  injection h with h
  have hne : fig.icepct ≠ [] := by
    intro e
    rw [e] at hdf
    simp [readPct] at hdf
  obtain ⟨df', n, h1, h2, h3⟩ := readPct_ok hne
  rw [h1] at hdf
  injection hdf with hdf
  subst hdf
  rw [h2, List.map_map] at h
  refine ⟨?_, ?_, n, ?_⟩
  · intro seed hs trap ht table hl
    obtain ⟨d, hd, hm⟩ := icepct_of_load hfig (List.mem_singleton.2 rfl) hs ht hl
    refine ⟨d, _, hd, ?_, colShown_pad _ (n - ((sortDepth d.clean).map (·.icepct)).length) (hp _ _ _ table d hl hd)⟩
    rw [← h]
    exact List.mem_map.2 ⟨_, hm, rfl⟩
  · intro c hc
    rw [← h] at hc
    obtain ⟨⟨⟨run, seed, trap⟩, v⟩, hm, rfl⟩ := List.mem_map.1 hc
    obtain ⟨hr, hs, ht, table, d, hl, hd, -⟩ := ((C120_percentages hfig).2 run seed trap v).1 hm
    obtain rfl := List.mem_singleton.1 hr
    exact ⟨seed, hs, trap, ht, table, hl, rfl⟩
  · intro c hc
    rw [← h] at hc
    obtain ⟨c', hm, rfl⟩ := List.mem_map.1 hc
    have := h3 c' hm
    simp only [Function.comp_apply, List.length_map, List.length_append, List.length_replicate]
    omega

theorem subPct_ok {df : List (PctCol K)} {run seed : String} (h : ∃ c ∈ df, c.1.1 = run ∧ c.1.2.1 = seed) :
    ∃ out, subPct df run seed = .ok out ∧
      ∀ trap cells, (trap, cells) ∈ out ↔ ((run, seed, trap), cells) ∈ df := by
  obtain ⟨c, hc, h1, h2⟩ := h
  refine ⟨((df.filter fun c => c.1.1 = run).filter fun c => c.1.2.1 = seed).map fun c => (c.1.2.2, c.2),
    ?_, ?_⟩
  · unfold subPct
    rw [if_neg, if_neg]
    · simp only [List.isEmpty_iff]
      intro e
      have : c ∈ (df.filter fun c => c.1.1 = run).filter fun c => c.1.2.1 = seed := by
        simp [hc, h1, h2]
      rw [e] at this
      cases this
    · simp only [List.isEmpty_iff]
      intro e
      have : c ∈ df.filter fun c => c.1.1 = run := by simp [hc, h1]
      rw [e] at this
      cases this
  · intro trap cells
    simp only [List.mem_map, List.mem_filter, decide_eq_true_eq, Prod.mk.injEq]
    constructor
    · rintro ⟨⟨⟨a, b, t⟩, v⟩, ⟨⟨hm, rfl⟩, rfl⟩, rfl, rfl⟩
      exact hm
    · intro hm
      exact ⟨_, ⟨⟨hm, rfl⟩, rfl⟩, rfl, rfl⟩

theorem subPct_error {df : List (PctCol K)} {run seed : String}
    (h : ¬ ∃ c ∈ df, c.1.1 = run ∧ c.1.2.1 = seed) : subPct df run seed = .error .keyError := by
  unfold subPct
  split
  · rfl
  · rw [if_pos]
    simp only [List.isEmpty_iff, List.filter_eq_nil_iff, List.mem_filter, decide_eq_true_eq]
    rintro c ⟨hc, h1⟩ h2
    exact h ⟨c, hc, h1, h2⟩

/-- **C135** The tables of Figure 8 exist exactly if each of the two runs has a file of seed 7; each shows
the layers of its files.  With files of one run only there is a `KeyError`, without files a
`ValueError`. -/
theorem C135_fig8 {draw : List (StratRow K) → Except PyErr (Drawn K)}
    {sortDepth : List (CleanRow K) → List (CleanRow K)}
    {load : String → Int → String → Option (List (StratRow K))} {corder : List String}
    {fig : StratFigure K}
    (hfig : stratFigure draw sortDepth load ["moonpies", "no_bsed"] [7] corder = .ok fig)
    (hp : ∀ run seed trap table d, load run seed trap = some table → draw table = .ok d → ∀ x, some x ∈ (sortDepth d.clean).map (·.icepct) →
      0 ≤ x ∧ x ≤ 100) :
    ((∃ trap ∈ corder, ∃ table, load "moonpies" 7 trap = some table) →
      (∃ trap ∈ corder, ∃ table, load "no_bsed" 7 trap = some table) →
      ∃ top bot, icePctFig8 draw sortDepth load corder = .ok (top, bot) ∧
        ∀ run part, (run = "moonpies" ∧ part = top) ∨ (run = "no_bsed" ∧ part = bot) →
          (∀ trap ∈ corder, ∀ table, load run 7 trap = some table → ∃ d cells, draw table = .ok d ∧
            (trap, cells) ∈ part ∧ ColShown ((sortDepth d.clean).map (·.icepct)) cells) ∧
          ∀ c ∈ part, c.1 ∈ corder ∧ ∃ table, load run 7 c.1 = some table) ∧
    ((∃ run ∈ ["moonpies", "no_bsed"], ∃ trap ∈ corder, ∃ table, load run 7 trap = some table) →
      (∃ run ∈ ["moonpies", "no_bsed"], ∀ trap ∈ corder, load run 7 trap = none) →
      icePctFig8 draw sortDepth load corder = .error .keyError) ∧
    ((∀ run ∈ ["moonpies", "no_bsed"], ∀ trap ∈ corder, load run 7 trap = none) →
      icePctFig8 draw sortDepth load corder = .error .valueError) := by
  have h7 : toString (7 : Int) = "7" := by decide +kernel
  -- the columns of the table
  have hcols : ∀ run ∈ ["moonpies", "no_bsed"], ∀ trap ∈ corder, ∀ table,
      load run 7 trap = some table → ∃ d, draw table = .ok d ∧
      ((run, (7 : Int), trap), (sortDepth d.clean).map (·.icepct)) ∈ fig.icepct :=
    fun run hr trap ht table hl => icepct_of_load hfig hr (List.mem_singleton.2 rfl) ht hl
  have hcols' : ∀ c ∈ fig.icepct, c.1.2.1 = 7 ∧ c.1.2.2 ∈ corder ∧ ∃ table d,
      load c.1.1 7 c.1.2.2 = some table ∧ draw table = .ok d ∧
      c.2 = (sortDepth d.clean).map (·.icepct) := by
    rintro ⟨⟨run, seed, trap⟩, v⟩ hm
    obtain ⟨-, hs, ht, table, d, hl, hd, hv⟩ := ((C120_percentages hfig).2 run seed trap v).1 hm
    obtain rfl := List.mem_singleton.1 hs
    exact ⟨rfl, ht, table, d, hl, hd, hv⟩
  have hdf : fig.icepct ≠ [] → ∃ df n, readPct fig.icepct = .ok df ∧
      (∀ run trap v, ((run, (7 : Int), trap), v) ∈ fig.icepct →
        ((run, "7", trap), v ++ List.replicate (n - v.length) none) ∈ df) ∧
      ∀ c ∈ df, c.1.2.2 ∈ corder ∧ ∃ table, load c.1.1 7 c.1.2.2 = some table := by
    intro hne
    obtain ⟨df, n, h1, h2, -⟩ := readPct_ok hne
    refine ⟨df, n, h1, ?_, ?_⟩
    · intro run trap v hm
      rw [h2]
      exact List.mem_map.2 ⟨_, hm, by rw [h7]⟩
    · intro c hc
      rw [h2] at hc
      obtain ⟨c', hm, rfl⟩ := List.mem_map.1 hc
      obtain ⟨-, ht, table, d, hl, -⟩ := hcols' _ hm
      exact ⟨ht, table, hl⟩
  have hne : (∃ run ∈ ["moonpies", "no_bsed"], ∃ trap ∈ corder, ∃ table,
      load run 7 trap = some table) → fig.icepct ≠ [] := by
    rintro ⟨run, hr, trap, ht, table, hl⟩ e
    obtain ⟨d, -, hm⟩ := hcols run hr trap ht table hl
    rw [e] at hm
    cases hm
  have hrun : icePctFig8 draw sortDepth load corder = (readPct fig.icepct).bind fun df =>
      (subPct df "moonpies" "7").bind fun top => (subPct df "no_bsed" "7").bind fun bot =>
        .ok (top.map (fun c => (c.1, c.2.map showPct)), bot.map (fun c => (c.1, c.2.map showPct))) := by
    unfold icePctFig8
    rw [hfig]
    rfl
  rw [hrun]
  refine ⟨?_, ?_, ?_⟩
  · rintro ⟨t1, ht1, tb1, hl1⟩ ⟨t2, ht2, tb2, hl2⟩
    obtain ⟨df, n, a1, a2, a3⟩ := hdf (hne ⟨_, by simp, t1, ht1, tb1, hl1⟩)
    have hex : ∀ run ∈ ["moonpies", "no_bsed"], ∀ trap ∈ corder, ∀ table,
        load run 7 trap = some table → ∃ c ∈ df, c.1.1 = run ∧ c.1.2.1 = "7" := by
      intro run hr trap ht table hl
      obtain ⟨d, -, hm⟩ := hcols run hr trap ht table hl
      exact ⟨_, a2 _ _ _ hm, rfl, rfl⟩
    obtain ⟨top, b1, b2⟩ := subPct_ok (hex "moonpies" (by simp) t1 ht1 tb1 hl1)
    obtain ⟨bot, c1, c2⟩ := subPct_ok (hex "no_bsed" (by simp) t2 ht2 tb2 hl2)
    refine ⟨_, _, by rw [a1]; simp only [Except.bind]; rw [b1]; simp only []; rw [c1], ?_⟩
    have part_ok : ∀ run ∈ ["moonpies", "no_bsed"], ∀ part : List (String × List (Option K)),
        (∀ trap cells, (trap, cells) ∈ part ↔ ((run, "7", trap), cells) ∈ df) →
        (∀ trap ∈ corder, ∀ table, load run 7 trap = some table → ∃ d cells, draw table = .ok d ∧
          (trap, cells) ∈ part.map (fun c => (c.1, c.2.map showPct)) ∧
          ColShown ((sortDepth d.clean).map (·.icepct)) cells) ∧
        ∀ c ∈ part.map (fun c => (c.1, c.2.map showPct)), c.1 ∈ corder ∧
          ∃ table, load run 7 c.1 = some table := by
      intro run hr part hpart
      constructor
      · intro trap ht table hl
        obtain ⟨d, hd, hm⟩ := hcols run hr trap ht table hl
        refine ⟨d, _, hd, List.mem_map.2 ⟨_, (hpart _ _).2 (a2 _ _ _ hm), rfl⟩, ?_⟩
        exact colShown_pad _ _ (hp _ _ _ table d hl hd)
      · intro c hc
        obtain ⟨⟨t, cells⟩, hm, rfl⟩ := List.mem_map.1 hc
        exact a3 _ ((hpart _ _).1 hm)
    rintro run part (⟨rfl, rfl⟩ | ⟨rfl, rfl⟩)
    · exact part_ok _ (by simp) _ b2
    · exact part_ok _ (by simp) _ c2
  · rintro hsome ⟨run, hr, hnone⟩
    obtain ⟨df, n, a1, a2, a3⟩ := hdf (hne hsome)
    rw [a1]
    simp only [Except.bind]
    have hno : ¬ ∃ c ∈ df, c.1.1 = run ∧ c.1.2.1 = "7" := by
      rintro ⟨c, hc, rfl, -⟩
      obtain ⟨ht, table, hl⟩ := a3 c hc
      rw [hnone _ ht] at hl
      cases hl
    by_cases hm : ∃ c ∈ df, c.1.1 = "moonpies" ∧ c.1.2.1 = "7"
    · obtain ⟨top, b1, -⟩ := subPct_ok hm
      rw [b1]
      simp only []
      rcases List.mem_cons.1 hr with rfl | hr
      · exact absurd hm hno
      · obtain rfl := List.mem_singleton.1 hr
        rw [subPct_error hno]
    · rw [subPct_error hm]
  · intro hnone
    have : fig.icepct = [] := by
      rw [List.eq_nil_iff_forall_not_mem]
      rintro ⟨⟨run, seed, trap⟩, v⟩ hm
      obtain ⟨hr, hs, ht, table, d, hl, -⟩ := ((C120_percentages hfig).2 run seed trap v).1 hm
      obtain rfl := List.mem_singleton.1 hs
      rw [hnone run hr trap ht] at hl
      cases hl
    rw [this]
    rfl

/-- Files of two seeds, the second with one layer more. -/
def exPctLoad (run : String) (seed : Int) (trap : String) : Option (List (StratRow ℚ)) :=
  if run = "moonpies" ∧ trap = "Faustini" then
    if seed = 8 ∨ seed = 7 then
      (makeStratCol (1 / 10 : ℚ) (1 / 1000) true 5 [⟨3, 2, 30, "Haworth"⟩, ⟨2, 1, 7, "Cabeus"⟩]).toOption
    else if seed = 1 then
      (makeStratCol (1 / 10 : ℚ) (1 / 1000) true 5 [⟨2, 12746, 87254, "Haworth"⟩]).toOption
    else none
  else if run = "no_bsed" ∧ trap = "Cabeus" ∧ seed = 7 then
    (makeStratCol (1 / 10 : ℚ) (1 / 1000) true 5 [⟨3, 2, 30, "Haworth"⟩]).toOption
  else none

def exPctDraw : List (StratRow ℚ) → Except PyErr (Drawn ℚ) :=
  plotColumn (fun s => s.length) (sortOn (·.depth)) (sortOn (·.2)) [("Haworth", 51), ("Cabeus", 98)] 1

/-- The table of Figure 7 for them. -/
example : icePctFig7 exPctDraw (sortOn (·.depth)) exPctLoad = .ok
    [(("moonpies", "8", "Faustini"), [some (125 / 10), some (625 / 100)]),
     (("moonpies", "1", "Faustini"), [some (128 / 10), none])] := by decide +kernel

/-- The tables of Figure 8; with the cold trap `Faustini` alone the second run has no file. -/
example : (icePctFig8 exPctDraw (sortOn (·.depth)) exPctLoad ["Faustini", "Cabeus"]).map (·.1) =
    .ok [("Faustini", [some (125 / 10), some (625 / 100)])] := by decide +kernel
example : (icePctFig8 exPctDraw (sortOn (·.depth)) exPctLoad ["Faustini", "Cabeus"]).map (·.2) =
    .ok [("Cabeus", [some (625 / 100), none])] := by decide +kernel
example : (icePctFig8 exPctDraw (sortOn (·.depth)) exPctLoad ["Faustini"]).map (·.1) =
    .error .keyError := by decide +kernel
example : (icePctFig8 exPctDraw (sortOn (·.depth)) exPctLoad ["Haworth"]).map (·.1) =
    .error .valueError := by decide +kernel

end MoonPIES
