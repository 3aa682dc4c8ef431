import Verif.Model.RandomAges
import Mathlib.Tactic.Linarith
import Mathlib.Tactic.FieldSimp
import Mathlib.Tactic.Ring
import Mathlib.Tactic.NormNum
import Mathlib.Tactic.Positivity
import Mathlib.Data.Rat.Floor
import Mathlib.Data.List.Perm.Basic
import Mathlib.MeasureTheory.Integral.IntervalIntegral.Basic

/-!
# C26-C28: rounding and randomized ages
-/

namespace MoonPIES

section field

variable {K : Type} [Field K] [LinearOrder K] [FloorRing K] [IsStrictOrderedRing K]

/-! ## C26 -/

/-- **C26** the result is `floor x` or `ceil x`, for every draw in `[0, 1)`. -/
theorem C26_neighbour (x u : K) (h0 : 0 ≤ u) (h1 : u < 1) :
    probRound x u = ⌊x⌋ ∨ probRound x u = ⌈x⌉ := by
  unfold probRound
  have ha := Int.floor_le x
  have hb := Int.lt_floor_add_one x
  have hlow : ⌊x⌋ ≤ ⌊x + u⌋ := Int.floor_le_floor (by linarith)
  have hupp : ⌊x + u⌋ < ⌊x⌋ + 2 := by
    rw [Int.floor_lt]; push_cast; linarith
  rcases (by omega : ⌊x + u⌋ = ⌊x⌋ ∨ ⌊x + u⌋ = ⌊x⌋ + 1) with h | h
  · exact Or.inl h
  · right
    have h2 : ((⌊x⌋ : K) + 1) ≤ x + u := by
      have := Int.floor_le (x + u)
      rw [h] at this; push_cast at this; exact this
    rw [h]
    symm
    rw [Int.ceil_eq_iff]
    push_cast
    constructor <;> linarith

/-- **C26** integers are returned unchanged. -/
theorem C26_integer (n : Int) (u : K) (h0 : 0 ≤ u) (h1 : u < 1) : probRound (n : K) u = n := by
  unfold probRound
  rw [Int.floor_intCast_add, Int.floor_eq_zero_iff.2 ⟨h0, h1⟩, add_zero]

/-- **C26** it rounds up exactly for draws in `[1 - fract x, 1)`, a set of measure
`fract x`. -/
theorem C26_up_iff (x u : K) (h1 : u < 1) :
    probRound x u = ⌊x⌋ + 1 ↔ 1 - Int.fract x ≤ u := by
  unfold probRound
  have ha := Int.floor_add_fract x
  have hb := Int.fract_lt_one x
  have hc := Int.fract_nonneg x
  rw [Int.floor_eq_iff]
  push_cast
  constructor
  · rintro ⟨h, _⟩; linarith
  · intro h; constructor <;> linarith

/-! ## C27 -/

theorem roundHalfEven_close (y : K) : |(roundHalfEven y : K) - y| ≤ 1 / 2 := by
  unfold roundHalfEven
  have h1 := Int.floor_le y
  have h2 := Int.lt_floor_add_one y
  simp only []
  generalize ⌊y⌋ = f at *
  have main : ∀ r : Int, ((r = f ∧ y - f ≤ 1 / 2) ∨ (r = f + 1 ∧ 1 / 2 ≤ y - f)) →
      |(r : K) - y| ≤ 1 / 2 := by
    intro r hr
    rw [abs_le]
    rcases hr with ⟨rfl, h3⟩ | ⟨rfl, h3⟩
    · constructor <;> linarith
    · push_cast; constructor <;> linarith
  apply main
  split
  · next h => exact Or.inl ⟨rfl, h.le⟩
  · next h =>
    rw [not_lt] at h
    split
    · exact Or.inr ⟨rfl, h⟩
    · next h' =>
      rw [not_lt] at h'
      split
      · exact Or.inl ⟨rfl, h'⟩
      · exact Or.inr ⟨rfl, h⟩

theorem roundHalfEven_int (n : Int) : roundHalfEven (n : K) = n := by
  unfold roundHalfEven
  simp only [Int.floor_intCast, sub_self]
  rw [if_pos (by norm_num)]

theorem roundHalfEven_mono {x y : K} (h : x ≤ y) : roundHalfEven x ≤ roundHalfEven y := by
  rcases eq_or_lt_of_le h with rfl | hlt
  · exact le_refl _
  by_contra hc
  rw [not_le] at hc
  have hx := abs_le.1 (roundHalfEven_close x)
  have hy := abs_le.1 (roundHalfEven_close y)
  have hc' : ((roundHalfEven y : Int) : K) + 1 ≤ roundHalfEven x := by exact_mod_cast hc
  linarith

/-- **C27** the result is a whole multiple of the timestep within half a timestep. -/
theorem C27_nearest_multiple (v ts : K) (hts : 0 < ts) :
    ∃ n : Int, roundToTs v ts = n * ts ∧ |roundToTs v ts - v| ≤ ts / 2 := by
  refine ⟨roundHalfEven (v / ts), rfl, ?_⟩
  unfold roundToTs
  have := roundHalfEven_close (v / ts)
  have e : (roundHalfEven (v / ts) : K) * ts - v = ((roundHalfEven (v / ts) : K) - v / ts) * ts := by
    field_simp
  rw [e, abs_mul, abs_of_pos hts]
  calc _ ≤ 1 / 2 * ts := mul_le_mul_of_nonneg_right this hts.le
    _ = ts / 2 := by ring

/-- **C27** no multiple of the timestep is nearer. -/
theorem C27_best (v ts : K) (hts : 0 < ts) (n : Int) : |roundToTs v ts - v| ≤ |n * ts - v| := by
  obtain ⟨m, hm, hb⟩ := C27_nearest_multiple v ts hts
  by_cases hmn : n = m
  · rw [hmn, ← hm]
  · have h1 : ts ≤ |((n : K) - m) * ts| := by
      rw [abs_mul, abs_of_pos hts]
      have h2 : (1 : K) ≤ |(n : K) - m| := by
        have : (1 : Int) ≤ |n - m| := Int.one_le_abs (sub_ne_zero.2 hmn)
        exact_mod_cast this
      nlinarith
    have h3 : ((n : K) - m) * ts = (n * ts - v) - (roundToTs v ts - v) := by rw [hm]; ring
    rw [h3] at h1
    have h4 := abs_sub (n * ts - v) (roundToTs v ts - v)
    linarith

/-- **C27** exact multiples are fixed, so rounding twice is rounding once. -/
theorem C27_fixes_multiples (ts : K) (hts : 0 < ts) :
    (∀ n : Int, roundToTs (n * ts) ts = n * ts) ∧
    ∀ v, roundToTs (roundToTs v ts) ts = roundToTs v ts := by
  have h : ∀ n : Int, roundToTs ((n : K) * ts) ts = n * ts := by
    intro n
    unfold roundToTs
    rw [mul_div_assoc, div_self hts.ne', mul_one, roundHalfEven_int]
  exact ⟨h, fun v => by
    obtain ⟨n, hn, _⟩ := C27_nearest_multiple v ts hts
    rw [hn, h n]⟩

/-- **C27** rounding is monotone. -/
theorem C27_monotone (ts v w : K) (hts : 0 < ts) (h : v ≤ w) : roundToTs v ts ≤ roundToTs w ts := by
  unfold roundToTs
  apply mul_le_mul_of_nonneg_right _ hts.le
  exact_mod_cast roundHalfEven_mono (div_le_div_of_nonneg_right h hts.le)

/-! ## C28 -/

variable {β : Type}

/-- `sort` returns its argument in some order, oldest first. -/
def Spec.SortDesc (sort : List (CraterAge K β) → List (CraterAge K β)) : Prop :=
  ∀ l, (sort l).Perm l ∧ ((sort l).map (·.age)).Pairwise (· ≥ ·)

/-- `r'` is `r` with a new age within its error bars up to half a timestep, on the
timestep grid; everything else unchanged. -/
def Spec.AgeWithin (ts : K) (r r' : CraterAge K β) : Prop :=
  r'.ageLow = r.ageLow ∧ r'.ageUpp = r.ageUpp ∧ r'.rest = r.rest ∧
  r.age - r.ageLow - ts / 2 ≤ r'.age ∧ r'.age ≤ r.age + r.ageUpp + ts / 2 ∧
  ∃ n : Int, r'.age = n * ts

open Spec

/-- **C28** every crater survives exactly once with its other fields unchanged; ages
stay within the error bars plus half a timestep and on the timestep grid; the table
is sorted from oldest to youngest.  Holds for every draw in the truncation range. -/
theorem C28_randomized_ages (sort : List (CraterAge K β) → List (CraterAge K β))
    (hsort : SortDesc sort) (ts : K) (hts : 0 < ts) (z : Nat → K) (rows : List (CraterAge K β))
    (hbars : ∀ r ∈ rows, 0 ≤ r.ageLow ∧ 0 ≤ r.ageUpp ∧ 0 < r.ageLow + r.ageUpp)
    (hz : ∀ (i : Nat) r, rows[i]? = some r → truncA r ≤ z i ∧ z i ≤ truncB r) :
    ∃ mid out, randomizeAges sort ts z rows = .ok out ∧ List.Forall₂ (AgeWithin ts) rows mid ∧
      out.Perm mid ∧ (out.map (·.age)).Pairwise (· ≥ ·) := by
  have key : ∀ (rows : List (CraterAge K β)) (k : Nat),
      (∀ r ∈ rows, 0 ≤ r.ageLow ∧ 0 ≤ r.ageUpp ∧ 0 < r.ageLow + r.ageUpp) →
      (∀ (i : Nat) r, rows[i]? = some r → truncA r ≤ z (k + i) ∧ z (k + i) ≤ truncB r) →
      ∃ mid, newAges ts z k rows = .ok mid ∧ List.Forall₂ (AgeWithin ts) rows mid := by
    intro rows
    induction rows with
    | nil => intro k _ _; exact ⟨[], rfl, List.Forall₂.nil⟩
    | cons r rows ih =>
      intro k hb hzz
      obtain ⟨hlow, hupp, hsum⟩ := hb r (by simp)
      have hsig : 0 < sigOf r := by unfold sigOf; linarith
      have hzk := hzz 0 r rfl
      rw [Nat.add_zero] at hzk
      have hab : truncA r < truncB r := by
        unfold truncA truncB
        exact div_lt_div_of_pos_right (by linarith) hsig
      obtain ⟨mid, h1, h2⟩ := ih (k + 1) (fun r hr => hb r (by simp [hr])) (fun i q hq => by
        have := hzz (i + 1) q (by simpa using hq)
        rwa [show k + (i + 1) = k + 1 + i by omega] at this)
      have hnew : newAge ts (z k) r = .ok { r with age := roundToTs (r.age + sigOf r * z k) ts } := by
        unfold newAge
        rw [if_neg (not_le.2 hsig), if_pos hab]
      refine ⟨{ r with age := roundToTs (r.age + sigOf r * z k) ts } :: mid, ?_, List.Forall₂.cons ?_ h2⟩
      · unfold newAges
        rw [hnew, h1]
        rfl
      · obtain ⟨n, hn, hc⟩ := C27_nearest_multiple (r.age + sigOf r * z k) ts hts
        have hc' := abs_le.1 hc
        have z1 : -r.ageLow ≤ sigOf r * z k := by
          have := hzk.1
          unfold truncA at this
          rw [div_le_iff₀ hsig] at this
          linarith [mul_comm (z k) (sigOf r)]
        have z2 : sigOf r * z k ≤ r.ageUpp := by
          have := hzk.2
          unfold truncB at this
          rw [le_div_iff₀ hsig] at this
          linarith [mul_comm (z k) (sigOf r)]
        refine ⟨rfl, rfl, rfl, ?_, ?_, n, hn⟩
        · show _ ≤ roundToTs _ _
          linarith [hc'.1]
        · show roundToTs _ _ ≤ _
          linarith [hc'.2]
  obtain ⟨mid, h1, h2⟩ := key rows 0 hbars (fun i r h => by simpa using hz i r h)
  refine ⟨mid, sort mid, ?_, h2, (hsort mid).1, (hsort mid).2⟩
  unfold randomizeAges
  rw [h1]; rfl

/-- **C28** a crater with both error bars zero makes the whole call raise. -/
theorem C28_zero_bars_raise (sort : List (CraterAge K β) → List (CraterAge K β)) (ts : K)
    (z : Nat → K) (rows : List (CraterAge K β))
    (h : ∃ r ∈ rows, r.ageLow = 0 ∧ r.ageUpp = 0) :
    randomizeAges sort ts z rows = .error .valueError := by
  have herr : ∀ (w : K) (r : CraterAge K β) e, newAge ts w r = .error e → e = .valueError := by
    intro w r e he
    unfold newAge at he
    split at he
    · cases he; rfl
    · split at he
      · cases he
      · cases he; rfl
  have herrs : ∀ (rows : List (CraterAge K β)) k e, newAges ts z k rows = .error e → e = .valueError := by
    intro rows
    induction rows with
    | nil => intro k e he; cases he
    | cons r rows ih =>
      intro k e he
      unfold newAges at he
      cases hn : newAge ts (z k) r with
      | error e' => rw [hn] at he; cases he; exact herr _ _ _ hn
      | ok r' =>
        rw [hn] at he
        cases hn2 : newAges ts z (k + 1) rows with
        | error e' => rw [hn2] at he; cases he; exact ih _ _ hn2
        | ok _ => rw [hn2] at he; cases he
  have key : ∀ (rows : List (CraterAge K β)) k, (∃ r ∈ rows, r.ageLow = 0 ∧ r.ageUpp = 0) →
      newAges ts z k rows = .error .valueError := by
    intro rows
    induction rows with
    | nil => rintro k ⟨r, hr, _⟩; simp at hr
    | cons r rows ih =>
      rintro k ⟨q, hq, h1, h2⟩
      unfold newAges
      cases hn : newAge ts (z k) r with
      | error e => rw [herr _ _ _ hn]; rfl
      | ok r' =>
        rcases List.mem_cons.1 hq with rfl | hq
        · unfold newAge sigOf at hn
          rw [h1, h2] at hn
          simp at hn
        · show (newAges ts z (k + 1) rows).bind _ = _
          rw [ih (k + 1) ⟨q, hq, h1, h2⟩]; rfl
  unfold randomizeAges
  rw [key rows 0 h]; rfl

/-- **C28** the call raises exactly if for some crater the error bars do not sum to more than zero. -/
theorem C28_raises_iff (sort : List (CraterAge K β) → List (CraterAge K β)) (ts : K) (z : Nat → K)
    (rows : List (CraterAge K β)) :
    (randomizeAges sort ts z rows = .error .valueError ↔ ∃ r ∈ rows, r.ageLow + r.ageUpp ≤ 0) ∧
    ((∃ out, randomizeAges sort ts z rows = .ok out) ↔ ∀ r ∈ rows, 0 < r.ageLow + r.ageUpp) := by
  have hone : ∀ (w : K) (r : CraterAge K β), newAge ts w r =
      if 0 < r.ageLow + r.ageUpp then .ok { r with age := roundToTs (r.age + sigOf r * w) ts }
      else .error .valueError := by
    intro w r
    have e : sigOf r = (r.ageLow + r.ageUpp) / 4 := by unfold sigOf; ring
    unfold newAge
    by_cases h : 0 < r.ageLow + r.ageUpp
    · have hs : 0 < sigOf r := by rw [e]; positivity
      rw [if_pos h, if_neg (not_le.2 hs), if_pos]
      unfold truncA truncB
      exact div_lt_div_of_pos_right (by linarith) hs
    · rw [if_neg h, if_pos]
      rw [e]
      linarith
  have key : ∀ (rows : List (CraterAge K β)) k,
      ((∀ r ∈ rows, 0 < r.ageLow + r.ageUpp) → ∃ mid, newAges ts z k rows = .ok mid) ∧
      ((∃ r ∈ rows, r.ageLow + r.ageUpp ≤ 0) → newAges ts z k rows = .error .valueError) := by
    intro rows
    induction rows with
    | nil => intro k; exact ⟨fun _ => ⟨_, rfl⟩, fun ⟨r, hr, _⟩ => by simp at hr⟩
    | cons r rows ih =>
      intro k
      rw [newAges, hone]
      constructor
      · intro h
        obtain ⟨mid, hm⟩ := (ih (k + 1)).1 fun q hq => h q (by simp [hq])
        rw [if_pos (h r (by simp)), hm]
        exact ⟨_, rfl⟩
      · rintro ⟨q, hq, h⟩
        by_cases hr : 0 < r.ageLow + r.ageUpp
        · rw [if_pos hr]
          rcases List.mem_cons.1 hq with rfl | hq
          · exact absurd hr (not_lt.2 h)
          · rw [(ih (k + 1)).2 ⟨q, hq, h⟩]; rfl
        · rw [if_neg hr]; rfl
  unfold randomizeAges
  by_cases h : ∀ r ∈ rows, 0 < r.ageLow + r.ageUpp
  · obtain ⟨mid, hm⟩ := (key rows 0).1 h
    rw [hm]
    refine ⟨⟨fun h' => (by cases h'), fun ⟨r, hr, h'⟩ => absurd (h r hr) (not_lt.2 h')⟩, fun _ => h, fun _ => ⟨_, rfl⟩⟩
  · have h2 : ∃ r ∈ rows, r.ageLow + r.ageUpp ≤ 0 := by
      by_contra hc
      exact h fun r hr => not_le.1 fun h' => hc ⟨r, hr, h'⟩
    rw [(key rows 0).2 h2]
    exact ⟨⟨fun _ => h2, fun _ => rfl⟩, fun ⟨_, h'⟩ => (by cases h'), fun h' => absurd h' h⟩

/-- A crater with a negative lower bar as large as the upper one makes the call raise. -/
example : randomizeAges id 1 (fun _ => 0) [({ age := 4, ageLow := -1, ageUpp := 1, rest := () } : CraterAge ℚ Unit)] =
    .error .valueError :=
  (C28_raises_iff id 1 (fun _ => 0) _).1.2 ⟨_, List.mem_singleton.2 rfl, by norm_num⟩

end field

/-! ## C26 over the reals: expectation -/

open MeasureTheory intervalIntegral in
/-- **C26** the expectation over a uniform draw is exactly `x`. -/
theorem C26_unbiased (x : ℝ) : ∫ u in (0 : ℝ)..1, (probRound x u : ℝ) = x := by
  have hf0 := Int.fract_nonneg x
  have hf1 := Int.fract_lt_one x
  have hx := Int.floor_add_fract x
  set c : ℝ := 1 - Int.fract x with hc
  have hc0 : 0 < c := by rw [hc]; linarith
  have hc1 : c ≤ 1 := by rw [hc]; linarith
  have e1 : ∀ u ∈ Set.Ioo 0 c, (probRound x u : ℝ) = (⌊x⌋ : ℝ) := by
    intro u hu
    have hu1 : u < 1 := hu.2.trans_le hc1
    rcases C26_neighbour x u hu.1.le hu1 with h | h
    · rw [h]
    · have := (C26_up_iff x u hu1).not.2 (by rw [not_le]; exact hu.2)
      have h0 : ⌊x⌋ ≤ probRound x u := Int.floor_le_floor (by linarith [hu.1])
      have h2 := Int.ceil_le_floor_add_one x
      have : probRound x u = ⌊x⌋ := by omega
      rw [this]
  have e2 : ∀ u ∈ Set.Ioo c 1, (probRound x u : ℝ) = (⌊x⌋ : ℝ) + 1 := by
    intro u hu
    have := (C26_up_iff x u hu.2).2 hu.1.le
    rw [this]; push_cast; ring
  have i1 : ∫ u in (0 : ℝ)..c, (probRound x u : ℝ) = c * ⌊x⌋ := by
    rw [integral_congr_Ioo_of_le hc0.le e1]
    simp
  have i2 : ∫ u in c..(1 : ℝ), (probRound x u : ℝ) = (1 - c) * (⌊x⌋ + 1) := by
    rw [integral_congr_Ioo_of_le hc1 e2]
    simp
    ring
  have hint : ∀ a b : ℝ, IntervalIntegrable (fun u => (probRound x u : ℝ)) volume a b := by
    intro a b
    apply Monotone.intervalIntegrable
    intro u v huv
    have h : probRound x u ≤ probRound x v := Int.floor_le_floor (by linarith)
    exact Int.cast_le.2 h
  rw [← integral_add_adjacent_intervals (hint 0 c) (hint c 1), i1, i2, hc]
  linarith [hx]

/-- A draw that rounds 6.1 up and one that rounds it down. -/
example : probRound (61 / 10 : ℚ) (95 / 100) = 7 ∧ probRound (61 / 10 : ℚ) (1 / 2) = 6 ∧
    probRound (-3 / 2 : ℚ) (1 / 4) = -2 := by decide +kernel

/-- Halves go to even multiples. -/
example : roundToTs (25 : ℚ) 10 = 20 ∧ roundToTs (35 : ℚ) 10 = 40 ∧ roundToTs (37 : ℚ) 10 = 40 := by
  decide +kernel

/-- C28: two craters whose order swaps. -/
def exAges : List (CraterAge ℚ String) := [⟨100, 40, 20, "A"⟩, ⟨90, 10, 30, "B"⟩]

example : (newAges (10 : ℚ) (fun i => if i = 0 then -2 else 2) 0 exAges).map
    (fun l => l.map (fun r => (r.age, r.rest))) = .ok [(70, "A"), (110, "B")] := by decide +kernel

example : ∀ r ∈ exAges, 0 ≤ r.ageLow ∧ 0 ≤ r.ageUpp ∧ 0 < r.ageLow + r.ageUpp := by
  intro r hr
  simp only [exAges, List.mem_cons, List.not_mem_nil, or_false] at hr
  rcases hr with rfl | rfl <;> norm_num

end MoonPIES
