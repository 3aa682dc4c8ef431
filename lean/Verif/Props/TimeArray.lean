import Verif.Model.TimeArray
import Mathlib.Tactic.FieldSimp
import Mathlib.Tactic.Ring
import Mathlib.Tactic.Linarith
import Mathlib.Tactic.LinearCombination
import Mathlib.Data.Rat.Floor

/-!
# C19: the time array
-/

namespace MoonPIES

variable {K : Type} [Field K] [LinearOrder K] [FloorRing K] [IsStrictOrderedRing K]

/-- The documented time grid: `n` times starting at `ts`, spaced by `dt`, down to
one step before `te = ts - n*dt`. -/
def Spec.uniformGrid (ts dt : K) (n : Nat) : List K :=
  (List.range n).map (fun i : Nat => ts - (i : K) * dt)

open Spec

theorem pyInt_natCast (n : Nat) : pyInt (n : K) = n := by
  unfold pyInt
  rw [if_pos (Nat.cast_nonneg n)]
  exact Int.floor_natCast n

theorem span_div {ts te dt : K} {n : Nat} (hdt : 0 < dt) (hn : ts - te = n * dt) :
    (ts - te) / dt = n := by rw [hn]; field_simp

/-- **C19 refuted.** `timeend = 5`, `timestart = 10`, `timestep = 1`: the five times
are spaced 9/4 apart and run past `timeend`. -/
theorem C19_refuted :
    ¬ ∀ (ts te dt : ℚ) (n : Nat), 0 ≤ te → te < ts → 0 < dt → ts - te = n * dt →
      getTimeArray ts te dt = .ok (uniformGrid ts dt n) := by
  intro h
  have := h 10 5 1 5 (by decide) (by decide) (by decide) (by decide +kernel)
  revert this
  decide +kernel

/-- What the code returns there. -/
example : getTimeArray (10 : ℚ) 5 1 = .ok [10, 31 / 4, 11 / 2, 13 / 4, 1] := by decide +kernel

/-- **C19 (partial).** Full claim: the uniform grid for every `timeend ≥ 0`
(refuted).  With `timeend = 0` (the default) and a timestep dividing the span the
time array is exactly the documented uniform grid. -/
theorem C19_uniform_partial (ts dt : K) (n : Nat) (hn : 0 < n) (hdt : 0 < dt)
    (hts : ts = n * dt) : getTimeArray ts 0 dt = .ok (uniformGrid ts dt n) := by
  unfold getTimeArray
  rw [if_neg hdt.ne', span_div hdt (by rw [sub_zero]; exact hts), pyInt_natCast]
  unfold linspace
  rw [if_neg (by omega)]
  split
  · next h =>
    have : n = 1 := by exact_mod_cast h
    subst this
    simp [uniformGrid, List.range_succ]
  · next h =>
    have h1 : n ≠ 1 := by intro h'; exact h (by exact_mod_cast h')
    have h2 : 2 ≤ n := by omega
    have h3 : ((n : K) - 1) ≠ 0 := by
      have : (2 : K) ≤ n := by exact_mod_cast h2
      intro h; linarith
    simp only [Int.toNat_natCast]
    unfold uniformGrid
    congr 1
    apply List.map_congr_left
    intro i _
    rw [hts]
    field_simp
    ring

/-- **C19 (partial), converse.** For a span of at least two whole timesteps the
code is right *only* when `timeend = 0`. -/
theorem C19_correct_iff_partial (ts te dt : K) (n : Nat) (hn : 2 ≤ n) (hdt : 0 < dt)
    (hspan : ts - te = n * dt) :
    getTimeArray ts te dt = .ok (uniformGrid ts dt n) ↔ te = 0 := by
  constructor
  · intro h
    unfold getTimeArray at h
    rw [if_neg hdt.ne', span_div hdt hspan, pyInt_natCast] at h
    unfold linspace at h
    rw [if_neg (by omega), if_neg (by omega)] at h
    simp only [Int.toNat_natCast, Except.ok.injEq] at h
    have h4 := congrArg (fun l => l[n - 1]?) h
    simp only [uniformGrid, List.getElem?_map, List.getElem?_range (show n - 1 < n by omega),
      Option.map_some, Option.some.injEq] at h4
    have h3 : ((n : K) - 1) ≠ 0 := by
      have : (2 : K) ≤ n := by exact_mod_cast hn
      intro h; linarith
    have h5 : ((n - 1 : Nat) : K) = (n : K) - 1 := by
      rw [Nat.cast_sub (by omega)]; simp
    rw [h5, mul_div_cancel₀ _ h3] at h4
    linear_combination (-1 : K) * h4 - hspan
  · rintro rfl
    exact C19_uniform_partial ts dt n (by omega) hdt (by rw [← hspan, sub_zero])

/-- **C19 (partial), shape.** For any `timeend` and any positive timestep (dividing
or not), with `timestep < timestart` and at least one step: there are
`⌊span/timestep⌋` times, they strictly decrease, start at `timestart` and stay
at or above `timestep`. -/
theorem C19_shape_partial (ts te dt : K) (hdt : 0 < dt) (hts : dt < ts) (hspan : dt ≤ ts - te) :
    ∃ l, getTimeArray ts te dt = .ok l ∧ (l.length : Int) = ⌊(ts - te) / dt⌋ ∧
      l.head? = some ts ∧ l.Pairwise (· > ·) ∧ ∀ x ∈ l, dt ≤ x ∧ x ≤ ts := by
  have hq : 1 ≤ (ts - te) / dt := by rw [le_div_iff₀ hdt]; linarith
  have hf : 1 ≤ ⌊(ts - te) / dt⌋ := by rw [Int.le_floor]; exact_mod_cast hq
  obtain ⟨n, hn⟩ := Int.eq_ofNat_of_zero_le (show 0 ≤ ⌊(ts - te) / dt⌋ by omega)
  unfold getTimeArray
  rw [if_neg hdt.ne']
  have hp : pyInt ((ts - te) / dt) = n := by
    unfold pyInt; rw [if_pos (by linarith)]; exact hn
  rw [hp, hn]
  unfold linspace
  rw [if_neg (by omega)]
  split
  · next h =>
    refine ⟨[ts], rfl, by simpa using h.symm, rfl, by simp, ?_⟩
    intro x hx
    simp only [List.mem_singleton] at hx
    subst hx
    exact ⟨hts.le, le_refl _⟩
  · next h =>
    have h2 : 2 ≤ n := by omega
    have h3 : 0 < ((n : K) - 1) := by
      have : (2 : K) ≤ n := by exact_mod_cast h2
      linarith
    refine ⟨_, rfl, by simp, ?_, ?_, ?_⟩
    · obtain ⟨m, rfl⟩ : ∃ m, n = m + 1 := ⟨n - 1, by omega⟩
      simp [List.range_succ_eq_map]
    · rw [List.pairwise_map]
      simp only [Int.toNat_natCast]
      refine List.Pairwise.imp ?_ List.pairwise_lt_range
      intro i j hij
      have h5 : (i : K) < j := by exact_mod_cast hij
      have h6 : (dt - ts) / ((n : K) - 1) < 0 := div_neg_of_neg_of_pos (by linarith) h3
      have := mul_lt_mul_of_neg_right h5 h6
      simp only [gt_iff_lt]
      linarith
    · intro x hx
      rw [List.mem_map] at hx
      obtain ⟨i, hi, rfl⟩ := hx
      simp only [Int.toNat_natCast, List.mem_range] at hi ⊢
      have h6 : (dt - ts) / ((n : K) - 1) ≤ 0 := (div_neg_of_neg_of_pos (by linarith) h3).le
      have h7 : (i : K) ≤ (n : K) - 1 := by
        have : (i : K) + 1 ≤ n := by exact_mod_cast hi
        linarith
      have h8 := mul_le_mul_of_nonpos_right h7 h6
      rw [mul_div_cancel₀ _ h3.ne'] at h8
      constructor
      · linarith
      · have : (i : K) * ((dt - ts) / ((n : K) - 1)) ≤ 0 :=
          mul_nonpos_of_nonneg_of_nonpos (Nat.cast_nonneg i) h6
        linarith

/-- The default configuration (scaled): 425 steps of 10 Myr from 4.25 Gyr. -/
example : getTimeArray (4250 : ℚ) 0 10 = .ok (uniformGrid 4250 10 425) :=
  C19_uniform_partial 4250 10 425 (by norm_num) (by norm_num) (by norm_num)

/-- A step that does not divide the span. -/
example : getTimeArray (10 : ℚ) 0 3 = .ok [10, 13 / 2, 3] := by decide +kernel

end MoonPIES
