import Verif.Lemmas.TimeFl
import Mathlib.Data.Rat.Floor

/-!
# C97: single precision model times date every event as exact times would
-/

namespace MoonPIES

open Spec

set_option linter.unusedSectionVars false

variable {K : Type} [Field K] [LinearOrder K] [IsStrictOrderedRing K] [FloorRing K]

/-! ## The time array -/

/-- **C97, the times.**  With a timestep that divides `timestart`, `timeend = 0` (as
shipped) and less than `2 ^ 53` years, no rounding happens on the way: the model times are
the exact times `timestart - i * timestep`, each rounded once to `cfg.dtype`. -/
theorem C97_times (fs : K → K) (n dt : Nat) (hn : 0 < n) (hdt : 0 < dt)
    (hmax : n * dt ≤ 2 ^ 53) :
    getTimeArrayFl (roundFloat 52 none : K → K) fs (n * dt : Nat) 0 dt =
      .ok ((uniformGrid ((n : K) * dt) dt n).map fs) := by
  have hdtK : (0 : K) < dt := by exact_mod_cast hdt
  have hle : dt ≤ n * dt := Nat.le_mul_of_pos_left dt hn
  have hnle : n ≤ n * dt := Nat.le_mul_of_pos_right n hdt
  have exact : ∀ z : Int, |z| ≤ 2 ^ 53 → roundFloat 52 none (z : K) = z :=
    fun z hz => roundFloat_int 52 z hz
  unfold getTimeArrayFl
  rw [if_neg (by omega)]
  have hq : (((n * dt : Nat) : Int) - 0 : Int) = ((n : Int) * dt : Int) := by push_cast; ring
  have e1 : ((((n * dt : Nat) : Int) - 0 : Int) : K) / ((dt : Int) : K) = ((n : Int) : K) := by
    rw [hq]; push_cast; field_simp
  rw [e1, exact n (by rw [abs_of_nonneg (by omega)]; exact_mod_cast hnle.trans hmax)]
  have e2 : pyInt (((n : Int)) : K) = n := by
    rw [Int.cast_natCast]; exact pyInt_natCast n
  rw [e2, exact _ (by rw [abs_of_nonneg (by positivity)]; exact_mod_cast hmax),
    exact dt (by rw [abs_of_nonneg (by omega)]; exact_mod_cast hle.trans hmax)]
  unfold linspaceFl
  rw [if_neg (by omega)]
  simp only [Int.toNat_natCast]
  -- the difference and the step
  have ed : roundFloat 52 none ((((dt : Int)) : K) - (((n * dt : Nat) : Int) : K)) =
      (((dt : Int) - ((n * dt : Nat) : Int) : Int) : K) := by
    rw [← Int.cast_sub]
    apply exact
    rw [abs_of_nonpos (by have : (dt : Int) ≤ ((n * dt : Nat) : Int) := by exact_mod_cast hle
                          omega)]
    have : (((n * dt : Nat) : Int)) ≤ 2 ^ 53 := by exact_mod_cast hmax
    omega
  rw [ed]
  congr 1
  have key : ∀ i : Nat, i < n → 
      (if n ≤ 1 then roundFloat 52 none (roundFloat 52 none ((i : K) *
            (((dt : Int) - ((n * dt : Nat) : Int) : Int) : K)) + (((n * dt : Nat) : Int) : K))
      else if roundFloat 52 none ((((dt : Int) - ((n * dt : Nat) : Int) : Int) : K) /
          ((n : K) - 1)) = 0 then
        roundFloat 52 none (roundFloat 52 none (roundFloat 52 none ((i : K) / ((n : K) - 1)) *
            (((dt : Int) - ((n * dt : Nat) : Int) : Int) : K)) + (((n * dt : Nat) : Int) : K))
      else roundFloat 52 none (roundFloat 52 none ((i : K) *
          roundFloat 52 none ((((dt : Int) - ((n * dt : Nat) : Int) : Int) : K) /
          ((n : K) - 1))) + (((n * dt : Nat) : Int) : K))) = (n : K) * dt - (i : K) * dt := by
    intro i hi
    by_cases h1 : n ≤ 1
    · obtain rfl : n = 1 := by omega
      obtain rfl : i = 0 := by omega
      rw [if_pos h1]
      have z := (roundFloat_rounding (K := K) 52 none).zero
      simp only [Nat.cast_zero, zero_mul, z, zero_add]
      rw [exact _ (by rw [abs_of_nonneg (by positivity)]; exact_mod_cast hmax)]
      push_cast; ring
    · rw [if_neg h1]
      have hn1 : ((n : K) - 1) ≠ 0 := by
        have : (2 : K) ≤ n := by exact_mod_cast (show 2 ≤ n by omega)
        intro h; linarith
      have es : (((dt : Int) - ((n * dt : Nat) : Int) : Int) : K) / ((n : K) - 1) =
          ((-(dt : Int) : Int) : K) := by
        rw [div_eq_iff hn1]; push_cast; ring
      rw [es, exact _ (by rw [abs_neg, abs_of_nonneg (by omega)]; exact_mod_cast hle.trans hmax)]
      rw [if_neg (by push_cast; intro h; linarith)]
      have hidt : i * dt ≤ n * dt := Nat.mul_le_mul_right dt hi.le
      have e3 : (i : K) * ((-(dt : Int) : Int) : K) = ((-((i * dt : Nat) : Int) : Int) : K) := by
        push_cast; ring
      rw [e3, exact _ (by rw [abs_neg, abs_of_nonneg (by positivity)]; exact_mod_cast hidt.trans hmax),
        ← Int.cast_add, exact]
      · push_cast; ring
      · have h2 : (((i * dt : Nat) : Int)) ≤ ((n * dt : Nat) : Int) := by exact_mod_cast hidt
        have h3 : (((n * dt : Nat) : Int)) ≤ 2 ^ 53 := by exact_mod_cast hmax
        rw [abs_of_nonneg (by omega)]
        have : (0 : Int) ≤ ((i * dt : Nat) : Int) := by positivity
        omega
  have hmap : (List.range n).map (fun i : Nat => 
      (if n ≤ 1 then roundFloat 52 none (roundFloat 52 none ((i : K) *
            (((dt : Int) - ((n * dt : Nat) : Int) : Int) : K)) + (((n * dt : Nat) : Int) : K))
      else if roundFloat 52 none ((((dt : Int) - ((n * dt : Nat) : Int) : Int) : K) /
          ((n : K) - 1)) = 0 then
        roundFloat 52 none (roundFloat 52 none (roundFloat 52 none ((i : K) / ((n : K) - 1)) *
            (((dt : Int) - ((n * dt : Nat) : Int) : Int) : K)) + (((n * dt : Nat) : Int) : K))
      else roundFloat 52 none (roundFloat 52 none ((i : K) *
          roundFloat 52 none ((((dt : Int) - ((n * dt : Nat) : Int) : Int) : K) /
          ((n : K) - 1))) + (((n * dt : Nat) : Int) : K)))) =
      uniformGrid ((n : K) * dt) dt n := by
    unfold uniformGrid
    exact List.map_congr_left (fun i hi => key i (List.mem_range.1 hi))
  rw [hmap]
  split
  · next h1 =>
    congr 1
    apply List.ext_getElem?
    intro i
    rw [List.getElem?_set]
    split
    · next hi =>
      subst hi
      unfold uniformGrid
      simp only [List.length_map, List.length_range]
      rw [if_pos (by omega), List.getElem?_map, List.getElem?_range (by omega)]
      simp only [Option.map_some, Option.some.injEq]
      rw [Nat.cast_sub (by omega)]
      push_cast; ring
    · rfl
  · rfl

/-! ## Dating events -/

/-- **C97, dating.**  Let the times of the model be rounded to `u` relative (`fs`), and so
the arithmetic with them (`fl`).  If the tolerance is at least `4 * u` and `timestart`
times twice the tolerance is less than a timestep, then binning values by age gives
exactly what it gives on the exact grid, for all ages that are whole multiples of the
timestep -- including those before the start or after the end of the model. -/
theorem C97_dating {A V : Type} {fs fl : K → K} {u tol dt : K} {n : Nat} (hfs : RelErr fs u)
    (hfl : RelErr fl u) (hn : 0 < n) (hdt : 0 < dt) (hu : 0 ≤ u) (htol : 4 * u ≤ tol)
    (hfine : 2 * n * tol < 1) (items : List (K × V)) (hages : ∀ p ∈ items, ∃ j : Int, p.1 = j * dt)
    (agg : A → V → A) (fill : A) :
    ages2timeFl fl tol ((uniformGrid ((n : K) * dt) dt n).map fs) items agg fill =
      ages2time tol (uniformGrid ((n : K) * dt) dt n) items agg fill := by
  obtain ⟨js, rfl⟩ : ∃ js : List (Int × V), items = js.map (fun p => ((p.1 : K) * dt, p.2)) := by
    induction items with
    | nil => exact ⟨[], rfl⟩
    | cons p l ih =>
      obtain ⟨j, hj⟩ := hages p (by simp)
      obtain ⟨js, hjs⟩ := ih (fun q hq => hages q (by simp [hq]))
      refine ⟨(j, p.2) :: js, ?_⟩
      rw [hjs, List.map_cons, ← hj]
  rw [ages2time_eq_fl, ages2timeFl_grid hfl (roundedGrid_map hfs hdt n) hn hdt hu htol hfine,
    ages2timeFl_grid (fl := fun x => x) (u := u) (fun x => by
      rw [sub_self, abs_zero]; exact mul_nonneg hu (abs_nonneg x))
      (roundedGrid_exact hu hdt n) hn hdt hu htol hfine]

/-- **C97, order.**  The rounded times are still strictly decreasing. -/
theorem C97_order {fs : K → K} {u dt : K} {n : Nat} (hfs : RelErr fs u) (hdt : 0 < dt)
    (hfine : 2 * n * u < 1) :
    ((uniformGrid ((n : K) * dt) dt n).map fs).Pairwise (· > ·) := by
  rw [List.pairwise_map]
  unfold uniformGrid
  rw [List.pairwise_map]
  refine List.Pairwise.imp_of_mem ?_ List.pairwise_lt_range
  intro i k hi hk hik
  rw [List.mem_range] at hi hk
  have e : ∀ m : Nat, (n : K) * dt - (m : K) * dt = ((n : K) - m) * dt := fun m => by ring
  rw [e, e]
  have hi1 : (i : K) + 1 ≤ k := by exact_mod_cast hik
  have hk1 : (k : K) + 1 ≤ n := by exact_mod_cast hk
  have hi0 : (0 : K) ≤ i := Nat.cast_nonneg i
  have hu : 0 ≤ u := by
    have := le_trans (abs_nonneg _) (hfs 1)
    simpa using this
  have b1 := (relErr_bounds hfs (x := ((n : K) - i) * dt) (mul_nonneg (by linarith) hdt.le)).1
  have b2 := (relErr_bounds hfs (x := ((n : K) - k) * dt) (mul_nonneg (by linarith) hdt.le)).2
  have h1 : u * (((n : K) - i) * dt) + u * (((n : K) - k) * dt) ≤ (2 * n * u) * dt := by
    have : u * (((n : K) - i) * dt) + u * (((n : K) - k) * dt) =
        (2 * n * u) * dt - u * ((i + k) * dt) := by ring
    rw [this]
    have : 0 ≤ u * (((i : K) + k) * dt) :=
      mul_nonneg hu (mul_nonneg (by linarith) hdt.le)
    linarith
  have h2 : (2 * n * u) * dt < 1 * dt := mul_lt_mul_of_pos_right hfine hdt
  have h3 : 1 * dt ≤ (((n : K) - i) - ((n : K) - k)) * dt :=
    mul_le_mul_of_nonneg_right (by linarith) hdt.le
  have e1 : (1 - u) * (((n : K) - i) * dt) = ((n : K) - i) * dt - u * (((n : K) - i) * dt) := by ring
  have e2 : (1 + u) * (((n : K) - k) * dt) = ((n : K) - k) * dt + u * (((n : K) - k) * dt) := by ring
  rw [gt_iff_lt]
  rw [sub_mul] at h3
  linarith

/-! ## Ages -/

/-- **C97, ages.**  Rounding an age to timesteps in double precision gives an exact multiple
of the timestep, at most half a timestep (and a rounding error) from the age. -/
theorem C97_ages (v : K) (dt : Nat) (hdt : 0 < dt) (hv : |v| ≤ 2 ^ 52) (hd : dt ≤ 2 ^ 51) :
    ∃ j : Int, roundToTsFl (roundFloat 52 none) v dt = (j : K) * dt ∧
      |(j : K) * dt - v| ≤ (dt : K) / 2 + |v| / 2 ^ 53 := by
  have hdtK : (0 : K) < dt := by exact_mod_cast hdt
  have hrel := roundFloat_relErr (K := K) 52 (v / dt)
  obtain ⟨q, hq⟩ : ∃ q, q = roundFloat 52 none (v / (dt : K)) := ⟨_, rfl⟩
  obtain ⟨j, hj⟩ : ∃ j, j = roundHalfEven q := ⟨_, rfl⟩
  have hc := roundHalfEven_close q
  rw [← hq] at hrel
  rw [← hj] at hc
  have e1 : |q * dt - v| ≤ |v| / 2 ^ 53 := by
    have h1 : q * dt - v = (q - v / dt) * dt := by field_simp
    rw [h1, abs_mul, abs_of_pos hdtK]
    have h2 := mul_le_mul_of_nonneg_right hrel hdtK.le
    refine le_trans h2 (le_of_eq ?_)
    rw [abs_div, abs_of_pos hdtK]
    field_simp
    ring
  have e2 : |(j : K) * dt - q * dt| ≤ (dt : K) / 2 := by
    rw [← sub_mul, abs_mul, abs_of_pos hdtK]
    have := mul_le_mul_of_nonneg_right hc hdtK.le
    linarith
  have e3 : |(j : K) * dt - v| ≤ (dt : K) / 2 + |v| / 2 ^ 53 :=
    le_trans (abs_sub_le _ (q * dt) _) (by linarith)
  refine ⟨j, ?_, e3⟩
  unfold roundToTsFl
  rw [← hq, ← hj]
  have ez : (j : K) * dt = ((j * dt : Int) : K) := by push_cast; ring
  rw [ez]
  apply roundFloat_int
  have h5 : |(j : K) * dt| ≤ 2 ^ 53 := by
    have h6 := abs_sub_abs_le_abs_sub ((j : K) * dt) v
    have h7 : (dt : K) ≤ 2 ^ 51 := by exact_mod_cast hd
    have h8 : |v| / 2 ^ 53 ≤ 1 / 2 := by
      rw [div_le_iff₀ (by positivity)]
      have p1 : (2 : K) ^ 53 = 2 * 2 ^ 52 := by norm_num
      rw [p1]; linarith
    have p1 : (2 : K) ^ 53 = 2 * 2 ^ 52 := by norm_num
    have p2 : (2 : K) ^ 52 = 2 * 2 ^ 51 := by norm_num
    have p3 : (1 : K) ≤ 2 ^ 51 := by norm_num
    linarith
  rw [ez, ← Int.cast_abs] at h5
  exact_mod_cast h5

/-- **C97, ages.**  It is the very multiple exact arithmetic gives, unless the age lies within
a rounding error of the middle between two timesteps. -/
theorem C97_ages_exact (v : K) (dt : Nat) (hdt : 0 < dt) (hv : |v| ≤ 2 ^ 52) (hd : dt ≤ 2 ^ 51)
    (hmid : ∀ k : Int, |v| / 2 ^ 53 < |v - ((k : K) + 1 / 2) * dt|) :
    roundToTsFl (roundFloat 52 none) v (dt : K) = roundToTs v dt := by
  have hdtK : (0 : K) < dt := by exact_mod_cast hdt
  have hrel := roundFloat_relErr (K := K) 52 (v / dt)
  obtain ⟨r, hr⟩ : ∃ r, r = roundHalfEven (v / (dt : K)) := ⟨_, rfl⟩
  have hc := abs_le.1 (roundHalfEven_close (v / (dt : K)))
  rw [← hr] at hc
  have e1 : |roundFloat 52 none (v / (dt : K)) - v / dt| ≤ |v| / 2 ^ 53 / dt := by
    refine le_trans hrel (le_of_eq ?_)
    rw [abs_div, abs_of_pos hdtK]
    field_simp
    ring
  have mid : ∀ k : Int, |v| / 2 ^ 53 / dt < |v / dt - ((k : K) + 1 / 2)| := by
    intro k
    have h1 : v / dt - ((k : K) + 1 / 2) = (v - ((k : K) + 1 / 2) * dt) / dt := by field_simp
    rw [h1, abs_div, abs_of_pos hdtK]
    exact div_lt_div_of_pos_right (hmid k) hdtK
  have m1 := mid r
  have m2 := mid (r - 1)
  rw [abs_of_nonpos (a := v / (dt : K) - ((r : K) + 1 / 2)) (by linarith [hc.1])] at m1
  push_cast at m2
  rw [abs_of_nonneg (a := v / (dt : K) - ((r : K) - 1 + 1 / 2)) (by linarith [hc.2])] at m2
  have e2 := abs_le.1 e1
  have hsame : roundHalfEven (roundFloat 52 none (v / (dt : K))) = r :=
    roundHalfEven_eq (by linarith [e2.1]) (by linarith [e2.2])
  obtain ⟨j, hj, -⟩ := C97_ages v dt hdt hv hd
  have hj2 : (roundHalfEven (roundFloat 52 none (v / (dt : K))) : K) * dt = (r : K) * dt := by
    rw [hsame]
  -- the multiple is a double
  unfold roundToTs
  rw [← hr]
  unfold roundToTsFl at hj ⊢
  rw [hsame] at hj ⊢
  have ez : (r : K) * dt = ((r * dt : Int) : K) := by push_cast; ring
  rw [ez]
  apply roundFloat_int
  have h5 : |(r : K) * dt| ≤ 2 ^ 53 := by
    have h6 := abs_sub_abs_le_abs_sub ((r : K) * dt) v
    have h7 : (dt : K) ≤ 2 ^ 51 := by exact_mod_cast hd
    have h8 : |(r : K) * dt - v| ≤ (dt : K) / 2 := by
      have h9 : (r : K) * dt - v = (r - v / dt) * dt := by field_simp
      rw [h9, abs_mul, abs_of_pos hdtK]
      have := mul_le_mul_of_nonneg_right (abs_le.2 hc) hdtK.le
      linarith
    have p1 : (2 : K) ^ 53 = 2 * 2 ^ 52 := by norm_num
    have p2 : (2 : K) ^ 52 = 2 * 2 ^ 51 := by norm_num
    have p3 : (1 : K) ≤ 2 ^ 51 := by norm_num
    linarith
  rw [ez, ← Int.cast_abs] at h5
  exact_mod_cast h5

/-! ## Volcanic epochs -/

/-- **C97, volcanism.**  If the limits of the two epochs are whole multiples of the timestep
(as shipped), the rounded times and limits give volcanic ice at exactly the timesteps at
which exact ones would. -/
theorem C97_head {fs : K → K} {u dt : K} {n : Nat} (hr : Rounding fs) (hfs : RelErr fs u)
    (hdt : 0 < dt) (hfine : 2 * n * u < 1) (cfg : HeadCfg K)
    (he : ∃ a b : Int, cfg.volc_early = (a * dt, b * dt))
    (hl : ∃ a b : Int, cfg.volc_late = (a * dt, b * dt)) :
    volcanicHeadFl fs cfg ((uniformGrid ((n : K) * dt) dt n).map fs) =
      volcanicHead cfg (uniformGrid ((n : K) * dt) dt n) := by
  obtain ⟨a, b, hab⟩ := he
  obtain ⟨c, d, hcd⟩ := hl
  unfold volcanicHeadFl volcanicHead
  simp only [hab, hcd, List.map_map]
  apply List.map_congr_left
  intro t ht
  unfold uniformGrid at ht
  obtain ⟨i, hi, rfl⟩ := List.mem_map.1 ht
  rw [List.mem_range] at hi
  have e : (n : K) * dt - (i : K) * dt = ((n - i : Nat) : K) * dt := by
    rw [Nat.cast_sub hi.le]; ring
  have key : ∀ k : Int, fs ((n : K) * dt - (i : K) * dt) ≤ fs (k * dt) ↔
      (n : K) * dt - (i : K) * dt ≤ k * dt := by
    intro k
    rw [e]
    exact grid_le_iff hr hfs hdt hfine (n - i) (by omega) (by omega) k
  have key2 : ∀ k : Int, fs (k * dt) < fs ((n : K) * dt - (i : K) * dt) ↔
      k * dt < (n : K) * dt - (i : K) * dt := by
    intro k
    rw [← not_le, ← not_le]
    exact not_congr (key k)
  simp only [Function.comp, gt_iff_lt, key, key2]

/-! ## Stratigraphy -/

/-- **C97, stratigraphy.**  Writing the rounded times into a cold trap's table changes the
time column and nothing else: the same layers are cut off at the trap's age, and ice,
ejecta, labels, depths and percentages agree. -/
theorem C97_strat {fs fl : K → K} {u tol dt : K} {n : Nat} (hfs : RelErr fs u)
    (hfl : RelErr fl u) (hdt : 0 < dt) (hu : 0 ≤ u) (htol : 4 * u ≤ tol) (htol0 : 0 < tol)
    (hfine : 2 * n * tol < 1) (agg : List K → K) (thickMin : K) (after : Bool) (j : Nat)
    (steps : List (Step K)) (hsteps : ∀ s ∈ steps, s.time ∈ uniformGrid ((n : K) * dt) dt n) :
    makeStratColFl fl agg thickMin tol after (j * dt) (steps.map (Step.retime fs)) =
      (makeStratColFl fl agg thickMin tol after (j * dt) steps).map
        (List.map (StratRow.retime fs)) := by
  apply makeStratColFl_retime
  intro s hs
  obtain ⟨i, hi, he⟩ := List.mem_map.1 (hsteps s hs)
  rw [List.mem_range] at hi
  have e : (n : K) * dt - (i : K) * dt = ((n - i : Nat) : K) * dt := by
    rw [Nat.cast_sub hi.le]; ring
  have hp : (0 : K) ≤ ((n - i : Nat) : K) * dt := mul_nonneg (Nat.cast_nonneg _) hdt.le
  rw [← he, e, cut_iff hfl hdt hu htol htol0 hfine (n - i) j (by omega) (by omega),
    cut_iff hfl hdt hu htol htol0 hfine (n - i) j (by omega) (by omega)]
  · rw [sub_self, abs_zero]; exact mul_nonneg hu hp
  · have := hfs (((n - i : Nat) : K) * dt)
    rwa [abs_of_nonneg hp] at this

/-- **C97, stratigraphy.**  The layers kept are exactly those not older than the trap. -/
theorem C97_cut {fs fl : K → K} {u tol dt : K} {n : Nat} (hfs : RelErr fs u)
    (hfl : RelErr fl u) (hdt : 0 < dt) (hu : 0 ≤ u) (htol : 4 * u ≤ tol) (htol0 : 0 < tol)
    (hfine : 2 * n * tol < 1) (j : Nat) (rows rows' : List (Option String × Row K))
    (hrows : ∀ r ∈ rows, ∃ t ∈ uniformGrid ((n : K) * dt) dt n, r.2.time = fs t)
    (h : cutAtAgeFl fl (j * dt) tol rows = .ok rows') (r : Option String × Row K) :
    r ∈ rows'.tail ↔ r ∈ rows ∧ ∃ t ∈ uniformGrid ((n : K) * dt) dt n, r.2.time = fs t ∧
      t ≤ j * dt := by
  have hfil : rows'.tail = rows.filter (fun r => decide (r.2.time <
      fl ((j : K) * dt + fl (|(j : K) * dt| * tol)))) := by
    unfold cutAtAgeFl at h
    split at h
    · cases h
    · next heq => injection h with h; rw [← h, heq]; rfl
  have key : ∀ t ∈ uniformGrid ((n : K) * dt) dt n,
      (fs t < fl ((j : K) * dt + fl (|(j : K) * dt| * tol)) ↔ t ≤ j * dt) := by
    intro t ht
    obtain ⟨i, hi, rfl⟩ := List.mem_map.1 ht
    rw [List.mem_range] at hi
    have e : (n : K) * dt - (i : K) * dt = ((n - i : Nat) : K) * dt := by
      rw [Nat.cast_sub hi.le]; ring
    have hp : (0 : K) ≤ ((n - i : Nat) : K) * dt := mul_nonneg (Nat.cast_nonneg _) hdt.le
    rw [e, cut_iff hfl hdt hu htol htol0 hfine (n - i) j (by omega) (by omega)
      _ (by have := hfs (((n - i : Nat) : K) * dt); rwa [abs_of_nonneg hp] at this),
      mul_le_mul_iff_left₀ hdt, Nat.cast_le]
  rw [hfil, List.mem_filter, decide_eq_true_eq]
  constructor
  · rintro ⟨hr, hlt⟩
    obtain ⟨t, ht, he⟩ := hrows r hr
    rw [he] at hlt
    exact ⟨hr, t, ht, he, (key t ht).1 hlt⟩
  · rintro ⟨hr, t, ht, he, hle⟩
    rw [he]
    exact ⟨hr, (key t ht).2 hle⟩

/-! ## The shipped settings -/

/-- **C97, as shipped.**  425 timesteps of ten million years in single precision with
`cfg.rtol = 1e-6`: the times made by `get_time_array`, and every binning of values whose
ages are whole timesteps, agree with exact arithmetic. -/
theorem C97_shipped {A V : Type} (items : List (K × V))
    (hages : ∀ p ∈ items, ∃ j : Int, p.1 = j * 10000000) (agg : A → V → A) (fill : A) :
    (do let time ← getTimeArrayFl (roundFloat 52 none : K → K) (roundFloat 23 none)
          4250000000 0 10000000
        ages2timeFl (roundFloat 23 none) (1 / 1000000) time items agg fill) =
      (do let time ← getTimeArray (4250000000 : K) 0 10000000
          ages2time (1 / 1000000) time items agg fill) := by
  have h1 := C97_times (K := K) (roundFloat 23 none) 425 10000000 (by norm_num) (by norm_num)
    (by norm_num)
  have h2 := C19_uniform_partial (K := K) 4250000000 10000000 425 (by norm_num) (by norm_num)
    (by norm_num)
  have h3 := C97_dating (K := K) (fs := roundFloat 23 none) (fl := roundFloat 23 none)
    (u := 1 / 2 ^ 24) (tol := 1 / 1000000) (dt := 10000000) (n := 425)
    (roundFloat_relErr 23) (roundFloat_relErr 23) (by norm_num) (by norm_num) (by norm_num)
    (by norm_num) (by norm_num) items hages agg fill
  norm_num at h1 h3
  rw [h1, h2]
  simp only [bind, Except.bind]
  norm_num
  exact h3

/-- The first shipped time is not a single precision number: it becomes 4 249 999 872. -/
example : (roundFloat 23 none (4250000000 : ℚ)) = 4249999872 := by decide +kernel

/-- **C97 needs the tolerance.**  Without one, an event dated to the first time of the model
would be lost: single precision puts that time 128 years too late. -/
theorem C97_tolerance_needed :
    ages2timeFl (roundFloat 23 none : ℚ → ℚ) 0
      ((uniformGrid (4250000000 : ℚ) 850000000 5).map (roundFloat 23 none))
      [(4250000000, (1 : Nat)), (1700000000, 1)] (· + ·) 0 = .ok [0, 0, 0, 1, 0] ∧
    ages2time (0 : ℚ) (uniformGrid (4250000000 : ℚ) 850000000 5)
      [(4250000000, (1 : Nat)), (1700000000, 1)] (· + ·) 0 = .ok [1, 0, 0, 1, 0] := by
  constructor <;> decide +kernel

/-- A limit that is no whole timestep can be rounded onto one: one year below 4 billion years
is, in single precision, 4 billion years. -/
example : volcanicHeadFl (roundFloat 23 none : ℚ → ℚ)
      ⟨1, 1, 1000000, 1, 1, (3999999999, 3000000000), (3000000000, 2000000000), 1⟩
      [4000000000] = [1] ∧
    volcanicHead (⟨1, 1, 1000000, 1, 1, (3999999999, 3000000000), (3000000000, 2000000000), 1⟩ :
      HeadCfg ℚ) [4000000000] = [0] := by
  constructor <;> decide +kernel

/-- Ages at the ends of the model, one before it and one after it: binned alike. -/
example : ages2timeFl (roundFloat 23 none : ℚ → ℚ) (1 / 1000000)
      ((uniformGrid (4250000000 : ℚ) 850000000 5).map (roundFloat 23 none))
      [(4250000000, (1 : Nat)), (850000000, 2), (5100000000, 3), (0, 4)] (· + ·) 0 =
        .ok [1, 0, 0, 0, 2] := by decide +kernel

/-- A random age, rounded to ten million years. -/
example : roundToTsFl (roundFloat 52 none : ℚ → ℚ) (3912345678 + 1 / 4) 10000000 =
    3910000000 := by decide +kernel

/-- The hypotheses of the stratigraphy theorems hold for the shipped settings. -/
example : RelErr (roundFloat 23 none : ℚ → ℚ) (1 / 2 ^ 24) ∧
    (4 : ℚ) * (1 / 2 ^ 24) ≤ 1 / 1000000 ∧ 2 * ((425 : Nat) : ℚ) * (1 / 1000000) < 1 :=
  ⟨roundFloat_relErr 23, by norm_num, by norm_num⟩

/-- A table cut at 1.7 billion years, from single precision times. -/
example : makeStratColFl (roundFloat 23 none : ℚ → ℚ) List.sum (1 / 10) (1 / 1000000) true
      1700000000 (([⟨4250000000, 1, 0, ""⟩, ⟨1700000000, 2, 0, ""⟩, ⟨850000000, 0, 3, "Shoemaker"⟩] :
        List (Step ℚ)).map (Step.retime (roundFloat 23 none))) =
    .ok [⟨0, 0, "Formation age", 1700000000, 5, none⟩, ⟨2, 0, "Ice", 1700000000, 5, some 100⟩,
      ⟨0, 3, "Shoemaker", 850000000, 3, some 0⟩] := by decide +kernel

end MoonPIES
