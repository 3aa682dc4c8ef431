import Verif.Model.TimeFl
import Verif.Lemmas.Float
import Verif.Lemmas.StratFl
import Verif.Props.TimeArray
import Verif.Props.AgesToTime
import Mathlib.Data.Rat.Floor

/-!
# Rounded model times: lemmas
-/

namespace MoonPIES

open Spec

set_option linter.unusedSectionVars false

variable {K : Type} [Field K] [LinearOrder K] [IsStrictOrderedRing K] [FloorRing K]

theorem roundFloat_int (p : Nat) (z : Int) (hz : |z| ≤ 2 ^ (p + 1)) :
    roundFloat p none (z : K) = z := by
  rcases le_total 0 z with h | h
  · obtain ⟨n, rfl⟩ := Int.eq_ofNat_of_zero_le h
    rw [abs_of_nonneg h] at hz
    have := roundFloat_nat (K := K) p n (by exact_mod_cast hz)
    simpa using this
  · obtain ⟨n, hn⟩ := Int.eq_ofNat_of_zero_le (show 0 ≤ -z by omega)
    obtain rfl : z = -(n : Int) := by omega
    rcases Nat.eq_zero_or_pos n with rfl | h0
    · simpa using (roundFloat_rounding (K := K) p none).zero
    · have h1 : ¬ (0 : K) ≤ ((-(n : Int) : Int) : K) := by
        push_cast
        have : (0 : K) < n := by exact_mod_cast h0
        intro h; linarith
      have hz' : n ≤ 2 ^ (p + 1) := by
        rw [abs_of_nonpos h] at hz; simp at hz; exact_mod_cast hz
      have h2 := roundFloat_nat (K := K) p n hz'
      unfold roundFloat at h2 ⊢
      rw [if_pos (Nat.cast_nonneg n)] at h2
      rw [if_neg h1]
      push_cast
      rw [neg_neg, h2]

/-- The times of the model, each known up to the relative error `u`. -/
def RoundedGrid (u dt : K) (n : Nat) (time : List K) : Prop :=
  time.length = n ∧ ∀ (i : Nat) t, time[i]? = some t →
    |t - ((n : K) - i) * dt| ≤ u * (((n : K) - i) * dt)

theorem roundedGrid_map {fs : K → K} {u dt : K} (h : RelErr fs u) (hdt : 0 < dt) (n : Nat) :
    RoundedGrid u dt n ((uniformGrid ((n : K) * dt) dt n).map fs) := by
  refine ⟨by simp [uniformGrid], ?_⟩
  intro i t ht
  simp only [uniformGrid, List.map_map, List.getElem?_map] at ht
  by_cases hi : i < n
  · rw [List.getElem?_range hi] at ht
    simp only [Option.map_some, Option.some.injEq, Function.comp] at ht
    have e : (n : K) * dt - (i : K) * dt = ((n : K) - i) * dt := by ring
    rw [e] at ht
    subst ht
    refine le_trans (h _) (le_of_eq ?_)
    rw [abs_of_nonneg]
    have : (i : K) ≤ n := by exact_mod_cast hi.le
    exact mul_nonneg (by linarith) hdt.le
  · rw [List.getElem?_eq_none (by simpa using hi)] at ht
    cases ht

theorem roundedGrid_exact {u dt : K} (hu : 0 ≤ u) (hdt : 0 < dt) (n : Nat) :
    RoundedGrid u dt n (uniformGrid ((n : K) * dt) dt n) := by
  have := roundedGrid_map (fs := fun x : K => x) (u := u) (dt := dt)
    (fun x => by rw [sub_self, abs_zero]; exact mul_nonneg hu (abs_nonneg x)) hdt n
  simpa using this

section constants

variable {u tol : K}

theorem tol_lo (hu : 0 ≤ u) (htol : 4 * u ≤ tol) (h2 : tol ≤ 1 / 2) :
    (1 + u) * (1 + u) * (1 - (1 - u) * tol) ≤ 1 := by
  have c1 : (1 + u) * (1 + u) ≤ 1 + 17 / 8 * u := by nlinarith
  have c2 : 1 - (1 - u) * tol ≤ 1 - 7 / 8 * tol := by nlinarith
  have c0 : (0 : K) ≤ 1 - (1 - u) * tol := by nlinarith
  have c3 : (0 : K) ≤ 1 + 17 / 8 * u := by linarith
  calc _ ≤ (1 + 17 / 8 * u) * (1 - 7 / 8 * tol) := mul_le_mul c1 c2 c0 c3
    _ ≤ 1 := by nlinarith

theorem tol_hi (hu : 0 ≤ u) (htol : 4 * u ≤ tol) (h2 : tol ≤ 1 / 2) :
    1 ≤ (1 - u) * (1 - u) * (1 + (1 - u) * tol) := by
  have c1 : 1 - 2 * u ≤ (1 - u) * (1 - u) := by nlinarith
  have c2 : 1 + 7 / 8 * tol ≤ 1 + (1 - u) * tol := by nlinarith
  have c3 : (0 : K) ≤ 1 - 2 * u := by linarith
  calc (1 : K) ≤ (1 - 2 * u) * (1 + 7 / 8 * tol) := by nlinarith
    _ ≤ _ := mul_le_mul c1 c2 (by linarith) (by linarith)

theorem tol_top (hu : 0 ≤ u) (htol : 4 * u ≤ tol) (h2 : tol ≤ 1 / 2) :
    (1 + u) * (1 + u) * (1 + (1 + u) * tol) ≤ 1 + 2 * tol := by
  have c4 : (1 + u) * (1 + u) ≤ 1 + 17 / 32 * tol := by nlinarith
  have c5 : 1 + (1 + u) * tol ≤ 1 + 9 / 8 * tol := by nlinarith
  have c6 : (0 : K) ≤ 1 + (1 + u) * tol := by nlinarith
  calc _ ≤ (1 + 17 / 32 * tol) * (1 + 9 / 8 * tol) := mul_le_mul c4 c5 c6 (by linarith)
    _ ≤ 1 + 2 * tol := by nlinarith

end constants

/-- The least and greatest time, with tolerance: on-grid ages are in range just when they are
one of the times. -/
theorem minmax_range {fl : K → K} {u tol dt : K} {n : Nat} {time : List K}
    (hfl : RelErr fl u) (hg : RoundedGrid u dt n time) (hn : 0 < n) (hdt : 0 < dt) (hu : 0 ≤ u)
    (htol : 4 * u ≤ tol) (hfine : 2 * n * tol < 1) :
    ∃ lo hi, minmaxRtolFl fl tol time = .ok (lo, hi) ∧
      ∀ j : Int, (lo ≤ j * dt ∧ j * dt ≤ hi) ↔ 1 ≤ j ∧ j ≤ n := by
  have hnK : (1 : K) ≤ n := by exact_mod_cast hn
  have htol0 : 0 ≤ tol := by linarith
  have htol2 : tol ≤ 1 / 2 := by nlinarith
  have hu2 : u ≤ 1 / 8 := by linarith
  obtain ⟨hlen, hg⟩ := hg
  cases time with
  | nil => simp at hlen; omega
  | cons x xs =>
    refine ⟨_, _, rfl, ?_⟩
    obtain ⟨amin, hamin⟩ : ∃ a, a = xs.foldl min x := ⟨_, rfl⟩
    obtain ⟨amax, hamax⟩ : ∃ a, a = xs.foldl max x := ⟨_, rfl⟩
    simp only [← hamin, ← hamax]
    have hmem : ∀ t ∈ x :: xs, (1 - u) * dt ≤ t ∧ t ≤ (1 + u) * (n * dt) := by
      intro t ht
      obtain ⟨i, hi⟩ := List.getElem?_of_mem ht
      have hb := abs_le.1 (hg i t hi)
      have hlt : i < n := by
        rw [← hlen]; exact (List.getElem?_eq_some_iff.1 hi).1
      have hi1 : (i : K) + 1 ≤ n := by exact_mod_cast hlt
      have hi0 : (0 : K) ≤ i := Nat.cast_nonneg i
      have a1 : dt ≤ ((n : K) - i) * dt := by nlinarith
      have a2 : ((n : K) - i) * dt ≤ n * dt := by nlinarith
      constructor
      · nlinarith [hb.1]
      · nlinarith [hb.2]
    have hmin := foldl_min_spec xs x
    have hmax := foldl_max_spec xs x
    rw [← hamin] at hmin
    rw [← hamax] at hmax
    -- first and last entry
    have hfirst : (1 - u) * (n * dt) ≤ amax := by
      have h0 := (abs_le.1 (hg 0 x (by simp))).1
      have := hmax.2 x (by simp)
      simp only [Nat.cast_zero, sub_zero] at h0
      linarith
    have hlast : amin ≤ (1 + u) * dt := by
      obtain ⟨t, ht⟩ : ∃ t, (x :: xs)[n - 1]? = some t :=
        ⟨_, List.getElem?_eq_getElem (by omega)⟩
      have h0 := (abs_le.1 (hg (n - 1) t ht)).2
      have := hmin.2 t (List.mem_of_getElem? ht)
      rw [Nat.cast_sub (by omega)] at h0
      push_cast at h0
      have e : ((n : K) - (n - 1)) * dt = dt := by ring
      rw [e] at h0
      linarith
    have hamin1 := (hmem amin hmin.1).1
    have hamax1 := (hmem amax hmax.1).2
    have hp : 0 < amin := lt_of_lt_of_le (mul_pos (by linarith) hdt) hamin1
    have hq : 0 < amax := lt_of_lt_of_le hp (hmin.2 _ hmax.1)
    rw [abs_of_pos hp, abs_of_pos hq]
    have b1 := relErr_bounds hfl (x := amin * tol) (mul_nonneg hp.le htol0)
    have b2 := relErr_bounds hfl (x := amax * tol) (mul_nonneg hq.le htol0)
    obtain ⟨p, hpdef⟩ : ∃ p, p = fl (amin * tol) := ⟨_, rfl⟩
    obtain ⟨q, hqdef⟩ : ∃ q, q = fl (amax * tol) := ⟨_, rfl⟩
    rw [← hpdef] at b1 ⊢
    rw [← hqdef] at b2 ⊢
    have hq0 : 0 ≤ q := le_trans (mul_nonneg (by linarith) (mul_nonneg hq.le htol0)) b2.1
    have hple : p ≤ 9 / 16 * amin := by
      refine le_trans b1.2 ?_
      have : (1 + u) * tol ≤ 9 / 16 := by nlinarith
      have := mul_le_mul_of_nonneg_left this hp.le
      linarith
    have b3 := relErr_bounds hfl (x := amin - p) (by linarith)
    have b4 := relErr_bounds hfl (x := amax + q) (by linarith)
    obtain ⟨lo, hlo⟩ : ∃ a, a = fl (amin - p) := ⟨_, rfl⟩
    obtain ⟨hi, hhi⟩ : ∃ a, a = fl (amax + q) := ⟨_, rfl⟩
    rw [← hlo] at b3 ⊢
    rw [← hhi] at b4 ⊢
    have hlo0 : 0 < lo := lt_of_lt_of_le (mul_pos (by linarith) (by linarith)) b3.1
    have hlo1 : lo ≤ dt := by
      refine le_trans b3.2 ?_
      have h1 : amin - p ≤ amin * (1 - (1 - u) * tol) := by linarith [b1.1]
      have h2 : (0 : K) ≤ 1 - (1 - u) * tol := by nlinarith
      have h3 : amin * (1 - (1 - u) * tol) ≤ (1 + u) * dt * (1 - (1 - u) * tol) :=
        mul_le_mul_of_nonneg_right hlast h2
      have h4 := tol_lo hu htol htol2
      have h5 : (1 + u) * (amin - p) ≤ (1 + u) * ((1 + u) * dt * (1 - (1 - u) * tol)) :=
        mul_le_mul_of_nonneg_left (h1.trans h3) (by linarith)
      refine le_trans h5 ?_
      have : (1 + u) * ((1 + u) * dt * (1 - (1 - u) * tol)) =
          dt * ((1 + u) * (1 + u) * (1 - (1 - u) * tol)) := by ring
      rw [this]
      exact mul_le_of_le_one_right hdt.le h4
    have hndt : 0 < (n : K) * dt := mul_pos (by linarith) hdt
    have hhi0 : (n : K) * dt ≤ hi := by
      refine le_trans ?_ b4.1
      have h1 : amax * (1 + (1 - u) * tol) ≤ amax + q := by linarith [b2.1]
      have h2 : (0 : K) ≤ 1 + (1 - u) * tol :=
        add_nonneg zero_le_one (mul_nonneg (by linarith) htol0)
      have h3 : (1 - u) * (n * dt) * (1 + (1 - u) * tol) ≤ amax * (1 + (1 - u) * tol) :=
        mul_le_mul_of_nonneg_right hfirst h2
      have h4 := tol_hi hu htol htol2
      have h5 : (1 - u) * ((1 - u) * (n * dt) * (1 + (1 - u) * tol)) ≤ (1 - u) * (amax + q) :=
        mul_le_mul_of_nonneg_left (h3.trans h1) (by linarith)
      refine le_trans ?_ h5
      have : (1 - u) * ((1 - u) * (n * dt) * (1 + (1 - u) * tol)) =
          (n * dt) * ((1 - u) * (1 - u) * (1 + (1 - u) * tol)) := by ring
      rw [this]
      exact le_mul_of_one_le_right hndt.le h4
    have hhi1 : hi < ((n : K) + 1) * dt := by
      have h1 : amax + q ≤ amax * (1 + (1 + u) * tol) := by linarith [b2.2]
      have h2 : (0 : K) ≤ 1 + (1 + u) * tol :=
        add_nonneg zero_le_one (mul_nonneg (by linarith) htol0)
      have h3 : amax * (1 + (1 + u) * tol) ≤ (1 + u) * (n * dt) * (1 + (1 + u) * tol) :=
        mul_le_mul_of_nonneg_right hamax1 h2
      have h4 := tol_top hu htol htol2
      have h5 : (1 + u) * (amax + q) ≤ (1 + u) * ((1 + u) * (n * dt) * (1 + (1 + u) * tol)) :=
        mul_le_mul_of_nonneg_left (h1.trans h3) (by linarith)
      have e : (1 + u) * ((1 + u) * (n * dt) * (1 + (1 + u) * tol)) =
          (n * dt) * ((1 + u) * (1 + u) * (1 + (1 + u) * tol)) := by ring
      rw [e] at h5
      have h6 := mul_le_mul_of_nonneg_left h4 hndt.le
      have h7 := b4.2.trans (h5.trans h6)
      have h8 : (n : K) * dt * (1 + 2 * tol) = n * dt + (2 * n * tol) * dt := by ring
      have h9 : (2 * n * tol) * dt < 1 * dt := mul_lt_mul_of_pos_right hfine hdt
      rw [h8] at h7
      linarith
    intro j
    constructor
    · rintro ⟨h1, h2⟩
      constructor
      · by_contra hc
        have hj : j ≤ 0 := by omega
        have : (j : K) * dt ≤ 0 := mul_nonpos_of_nonpos_of_nonneg (by exact_mod_cast hj) hdt.le
        linarith
      · by_contra hc
        have hj : (n : Int) + 1 ≤ j := by omega
        have hjK : (n : K) + 1 ≤ j := by exact_mod_cast hj
        have : ((n : K) + 1) * dt ≤ j * dt := mul_le_mul_of_nonneg_right hjK hdt.le
        linarith
    · rintro ⟨h1, h2⟩
      have hj1 : (1 : K) ≤ j := by exact_mod_cast h1
      have hj2 : (j : K) ≤ n := by exact_mod_cast h2
      constructor
      · exact hlo1.trans (le_mul_of_one_le_left hdt.le hj1)
      · exact le_trans (mul_le_mul_of_nonneg_right hj2 hdt.le) hhi0

/-- The nearest of the rounded times is the right one. -/
theorem argmin_grid {fl : K → K} {u dt : K} {n : Nat} {time : List K} (hfl : RelErr fl u)
    (hg : RoundedGrid u dt n time) (hdt : 0 < dt) (hu : 0 ≤ u) (hu8 : u ≤ 1 / 8)
    (hfine : 8 * n * u ≤ 1) (j : Int) (h1 : 1 ≤ j) (h2 : j ≤ n) :
    argmin (time.map (fun t => |fl (t - j * dt)|)) = .ok (n - j.toNat) := by
  obtain ⟨hlen, hg⟩ := hg
  obtain ⟨m, rfl⟩ := Int.eq_ofNat_of_zero_le (show 0 ≤ j by omega)
  simp only [Int.toNat_natCast, Int.cast_natCast]
  have hm1 : 1 ≤ m := by omega
  have hm2 : m ≤ n := by omega
  have hne : time.map (fun t => |fl (t - (m : K) * dt)|) ≠ [] := by
    intro h; rw [List.map_eq_nil_iff] at h; subst h; simp at hlen; omega
  obtain ⟨i, hi⟩ := argmin_total hne
  rw [hi]
  obtain ⟨v, hv, hle, -⟩ := argmin_spec hi
  rw [List.getElem?_map] at hv
  cases ht : time[i]? with
  | none => rw [ht] at hv; cases hv
  | some t =>
    rw [ht] at hv
    simp only [Option.map_some, Option.some.injEq] at hv
    by_contra hcon
    have hin : i ≠ n - m := fun h => hcon (by rw [h])
    have hlt : i < n := by rw [← hlen]; exact (List.getElem?_eq_some_iff.1 ht).1
    -- the right place
    obtain ⟨s, hs⟩ : ∃ s, time[n - m]? = some s := ⟨_, List.getElem?_eq_getElem (by omega)⟩
    have hvs := hle (n - m) _ (by rw [List.getElem?_map, hs]; rfl)
    have gs := hg (n - m) s hs
    rw [Nat.cast_sub hm2] at gs
    have e : ((n : K) - (n - m)) * dt = m * dt := by ring
    rw [e] at gs
    have hmn : (m : K) ≤ n := by exact_mod_cast hm2
    have gt := hg i t ht
    have hi0 : (0 : K) ≤ i := Nat.cast_nonneg i
    have hundt : u * (n * dt) ≤ dt / 8 := by nlinarith
    -- near
    have near : |s - m * dt| ≤ dt / 8 := by
      refine le_trans gs (le_trans ?_ hundt)
      exact mul_le_mul_of_nonneg_left (mul_le_mul_of_nonneg_right hmn hdt.le) hu
    have nearfl : |fl (s - m * dt)| ≤ 9 / 64 * dt := by
      have := hfl (s - m * dt)
      have h3 := abs_sub_abs_le_abs_sub (fl (s - m * dt)) (s - m * dt)
      nlinarith [abs_nonneg (s - m * dt)]
    -- far
    have far : 7 / 8 * dt ≤ |t - m * dt| := by
      have hd : dt ≤ |((n : K) - i) * dt - m * dt| := by
        have e2 : ((n : K) - i) * dt - m * dt = ((n : K) - i - m) * dt := by ring
        rw [e2, abs_mul, abs_of_pos hdt]
        have : (1 : K) ≤ |(n : K) - i - m| := by
          have hz : ((n : K) - i - m) = (((n : Int) - i - m : Int) : K) := by push_cast; ring
          rw [hz, ← Int.cast_abs]
          have : 1 ≤ |(n : Int) - i - m| := Int.one_le_abs (by omega)
          exact_mod_cast this
        exact le_mul_of_one_le_left hdt.le this
      have hb : |t - ((n : K) - i) * dt| ≤ dt / 8 := by
        refine le_trans gt (le_trans ?_ hundt)
        exact mul_le_mul_of_nonneg_left (mul_le_mul_of_nonneg_right (by linarith) hdt.le) hu
      have h3 := abs_sub_abs_le_abs_sub (((n : K) - i) * dt - m * dt) (t - m * dt)
      have e3 : ((n : K) - i) * dt - m * dt - (t - m * dt) = -(t - ((n : K) - i) * dt) := by ring
      rw [e3, abs_neg] at h3
      linarith
    have farfl : 49 / 64 * dt ≤ |fl (t - m * dt)| := by
      have := hfl (t - m * dt)
      have h3 := abs_sub_abs_le_abs_sub (t - m * dt) (fl (t - m * dt))
      rw [abs_sub_comm (t - m * dt) (fl (t - m * dt))] at h3
      nlinarith [abs_nonneg (t - m * dt)]
    rw [← hv] at hvs
    linarith

/-- What binning does with ages that are whole multiples of the timestep. -/
theorem ages2timeFl_grid {A V : Type} {fl : K → K} {u tol dt : K} {n : Nat} {time : List K}
    (hfl : RelErr fl u) (hg : RoundedGrid u dt n time) (hn : 0 < n) (hdt : 0 < dt) (hu : 0 ≤ u)
    (htol : 4 * u ≤ tol) (hfine : 2 * n * tol < 1) (items : List (Int × V)) (agg : A → V → A)
    (fill : A) :
    ages2timeFl fl tol time (items.map (fun p => ((p.1 : K) * dt, p.2))) agg fill =
      placeAll agg ((items.filter (fun p => decide (1 ≤ p.1 ∧ p.1 ≤ (n : Int)))).map
        (fun p => (n - p.1.toNat, p.2))) (List.replicate n fill) := by
  have hnK : (1 : K) ≤ n := by exact_mod_cast hn
  have hu8 : u ≤ 1 / 8 := by nlinarith
  have hf8 : 8 * n * u ≤ 1 := by nlinarith
  obtain ⟨lo, hi, hmm, hrange⟩ := minmax_range hfl hg hn hdt hu htol hfine
  unfold ages2timeFl
  rw [hmm]
  simp only [bind, Except.bind]
  have hfilter : (items.map (fun p => ((p.1 : K) * dt, p.2))).filter
      (fun p => decide (p.1 ≥ lo) && decide (p.1 ≤ hi)) =
      (items.filter (fun p => decide (1 ≤ p.1 ∧ p.1 ≤ (n : Int)))).map (fun p => ((p.1 : K) * dt, p.2)) := by
    rw [List.filter_map]
    congr 1
    apply List.filter_congr
    intro p _
    simp only [Function.comp]
    rw [Bool.eq_iff_iff]
    simp only [Bool.and_eq_true, decide_eq_true_eq, ge_iff_le]
    exact hrange p.1
  rw [hfilter]
  have hidx : ∀ l : List (Int × V), (∀ p ∈ l, 1 ≤ p.1 ∧ p.1 ≤ n) →
      timeIdxFl fl time (l.map (fun p => ((p.1 : K) * dt, p.2))) =
        .ok (l.map (fun p => (n - p.1.toNat, p.2))) := by
    intro l
    induction l with
    | nil => intro _; rfl
    | cons p l ih =>
      intro h
      obtain ⟨h1, h2⟩ := h p (by simp)
      simp only [List.map_cons, timeIdxFl]
      rw [argmin_grid hfl hg hdt hu hu8 hf8 p.1 h1 h2, ih (fun q hq => h q (by simp [hq]))]
      rfl
  rw [hidx _ (fun p hp => by simpa using (List.mem_filter.1 hp).2)]
  simp only [hg.1]

theorem ages2time_eq_fl {A V : Type} (tol : K) (time : List K) (items : List (K × V))
    (agg : A → V → A) (fill : A) :
    ages2time tol time items agg fill = ages2timeFl (fun x => x) tol time items agg fill := by
  have hidx : ∀ l : List (K × V), timeIdx time l = timeIdxFl (fun x => x) time l := by
    intro l
    induction l with
    | nil => rfl
    | cons p l ih => simp only [timeIdx, timeIdxFl, ih]
  unfold ages2time ages2timeFl
  cases time with
  | nil => rfl
  | cons x xs => simp only [minmaxRtol, minmaxRtolFl, rtolOf, bind, Except.bind, hidx]

theorem roundHalfEven_eq {y : K} {r : Int} (h1 : (r : K) - 1 / 2 < y) (h2 : y < r + 1 / 2) :
    roundHalfEven y = r := by
  have h := abs_le.1 (roundHalfEven_close y)
  have a : (roundHalfEven y : K) < r + 1 := by linarith [h.2]
  have b : (r : K) < roundHalfEven y + 1 := by linarith [h.1]
  have a' : roundHalfEven y < r + 1 := by exact_mod_cast a
  have b' : r < roundHalfEven y + 1 := by exact_mod_cast b
  omega

theorem grid_le_iff {fs : K → K} {u dt : K} {n : Nat} (hr : Rounding fs) (hfs : RelErr fs u)
    (hdt : 0 < dt) (hfine : 2 * n * u < 1) (m : Nat) (hm0 : 0 < m) (hm : m ≤ n) (k : Int) :
    fs ((m : K) * dt) ≤ fs ((k : K) * dt) ↔ (m : K) * dt ≤ k * dt := by
  have hu : 0 ≤ u := by
    have := le_trans (abs_nonneg _) (hfs 1)
    simpa using this
  refine ⟨fun h => ?_, fun h => hr.mono h⟩
  by_contra hc
  have hkm : (k : K) < m := by
    by_contra h2
    exact hc (mul_le_mul_of_nonneg_right (not_lt.1 h2) hdt.le)
  have hkm' : k < m := by exact_mod_cast hkm
  have hk1 : (k : K) ≤ m - 1 := by
    have : k + 1 ≤ m := by omega
    have : (k : K) + 1 ≤ m := by exact_mod_cast this
    linarith
  · have hm1 : (1 : K) ≤ m := by exact_mod_cast hm0
    have hmn : (m : K) ≤ n := by exact_mod_cast hm
    have h1 : fs ((k : K) * dt) ≤ fs (((m : K) - 1) * dt) :=
      hr.mono (mul_le_mul_of_nonneg_right hk1 hdt.le)
    have b1 := (relErr_bounds hfs (x := (m : K) * dt) (mul_nonneg (by linarith) hdt.le)).1
    have b2 := (relErr_bounds hfs (x := ((m : K) - 1) * dt) (mul_nonneg (by linarith) hdt.le)).2
    have h2 : (1 - u) * ((m : K) * dt) ≤ (1 + u) * (((m : K) - 1) * dt) := by linarith
    have h3 : (1 - u) * ((m : K) * dt) - (1 + u) * (((m : K) - 1) * dt) =
        (1 - (2 * m - 1) * u) * dt := by ring
    have h4 : (2 * m - 1) * u < 1 := by nlinarith
    have h5 : 0 < (1 - (2 * m - 1) * u) * dt := mul_pos (by linarith) hdt
    linarith

/-! ## Tables with other times -/

/-- A step with its time changed. -/
def Spec.Step.retime (f : K → K) (s : Step K) : Step K := { s with time := f s.time }

/-- A layer with its time changed. -/
def Spec.StratRow.retime (f : K → K) (r : StratRow K) : StratRow K := { r with time := f r.time }

/-- A row with its time changed. -/
def Row.retime (f : K → K) (r : Row K) : Row K := { r with time := f r.time }

theorem runs_map {α β : Type} (lab : α → String) (lab' : β → String) (g : α → β)
    (hg : ∀ a, lab' (g a) = lab a) (l : List α) :
    runs lab' (l.map g) = (runs lab l).map (fun p => (g p.1, p.2.map g)) := by
  induction l with
  | nil => rfl
  | cons a l ih =>
    rw [List.map_cons, runs, runs, ih]
    cases runs lab l with
    | nil => rfl
    | cons p rest =>
      obtain ⟨b, bs⟩ := p
      simp only [List.map_cons, hg]
      split <;> rfl

theorem mergeAdjacentFl_retime (agg : List K → K) (f : K → K) (rows : List (Row K)) :
    mergeAdjacentFl agg (rows.map (Row.retime f)) =
      (mergeAdjacentFl agg rows).map (Row.retime f) := by
  unfold mergeAdjacentFl
  rw [groupRuns_eq, groupRuns_eq,
    runs_map (fun r : Row K => r.label) (fun r : Row K => r.label) (Row.retime f) (fun _ => rfl),
    List.map_map, List.map_map]
  apply List.map_congr_left
  rintro ⟨a, l⟩ -
  have hl : (l.map (Row.retime f)).getLastD (Row.retime f a) = Row.retime f (l.getLastD a) := by
    rw [List.getLastD_eq_getLast?, List.getLastD_eq_getLast?, List.getLast?_map]
    cases l.getLast? <;> rfl
  simp only [Function.comp, aggRowFl, hl, List.map_cons, List.map_map]
  rfl

theorem addDepthPctFl_retime (fl f : K → K) (rows : List (Row K)) :
    addDepthPctFl fl (rows.map (Row.retime f)) =
      (addDepthPctFl fl rows).map (Spec.StratRow.retime f) := by
  unfold addDepthPctFl
  simp only [List.map_map]
  have e : ((fun r : Row K => fl (r.ice + r.ejecta)) ∘ Row.retime f) =
      (fun r : Row K => fl (r.ice + r.ejecta)) := rfl
  rw [e, List.zipWith_map_left, List.map_zipWith]
  rfl

theorem dropUnlabelled_retime (f : K → K) (rows : List (Option String × Row K)) :
    dropUnlabelled (rows.map (fun r => (r.1, Row.retime f r.2))) =
      (dropUnlabelled rows).map (Row.retime f) := by
  unfold dropUnlabelled
  rw [List.filterMap_map, List.map_filterMap]
  congr 1
  funext r
  simp only [Function.comp]
  cases r.1 <;> rfl

theorem labelRows_retime (thickMin : K) (f : K → K) (steps : List (Step K)) :
    labelRows thickMin (steps.map (Spec.Step.retime f)) =
      (labelRows thickMin steps).map (fun r => (r.1, Row.retime f r.2)) := by
  unfold labelRows
  rw [List.map_map, List.map_map]
  rfl

theorem cut_above {u tol j : K} (hu : 0 ≤ u) (htol : 4 * u ≤ tol) (hj1 : 1 ≤ j)
    (hfine : 2 * (j + 1) * tol < 1) :
    j * (1 + u) * (1 + (1 + u) * tol) ≤ (1 - u) * (j + 1) := by
  have htol0 : 0 ≤ tol := by linarith
  have htol4 : tol ≤ 1 / 4 := by nlinarith
  have hu16 : u ≤ 1 / 16 := by linarith
  have h7 : (1 + u) * (1 + (1 + u) * tol) ≤ 1 + u + 17 / 16 * (17 / 16 * tol) := by
    have : (1 + u) * ((1 + u) * tol) ≤ 17 / 16 * (17 / 16 * tol) :=
      mul_le_mul (by linarith) (mul_le_mul_of_nonneg_right (by linarith) htol0)
        (mul_nonneg (by linarith) htol0) (by norm_num)
    linarith
  have h8 : j * ((1 + u) * (1 + (1 + u) * tol)) ≤ j * (1 + u + 17 / 16 * (17 / 16 * tol)) :=
    mul_le_mul_of_nonneg_left h7 (by linarith)
  have h9 : j * tol ≤ 1 / 2 - tol := by linarith
  have h10 : 4 * (j * u) ≤ j * tol := by
    have := mul_le_mul_of_nonneg_left htol (show (0 : K) ≤ j by linarith)
    linarith
  have e1 : j * (1 + u) * (1 + (1 + u) * tol) = j * ((1 + u) * (1 + (1 + u) * tol)) := by ring
  have e2 : j * (1 + u + 17 / 16 * (17 / 16 * tol)) =
      j + j * u + 289 / 256 * (j * tol) := by ring
  have e3 : (1 - u) * (j + 1) = j + 1 - j * u - u := by ring
  rw [e1, e3]
  refine le_trans h8 ?_
  rw [e2]
  linarith

theorem cut_below {u tol : K} (hu : 0 ≤ u) (htol : 4 * u ≤ tol) (htol0 : 0 < tol)
    (htol2 : tol ≤ 1 / 2) : 1 + u < (1 - u) * (1 + (1 - u) * tol) := by
  have c1 : 3 / 4 ≤ (1 - u) * (1 - u) := by nlinarith
  have c2 := mul_le_mul_of_nonneg_right c1 htol0.le
  have e : (1 - u) * (1 + (1 - u) * tol) = 1 - u + (1 - u) * (1 - u) * tol := by ring
  rw [e]
  linarith

/-- The limit of the cut at age `j * dt`, on a rounded time `t = m * dt`. -/
theorem cut_iff {fl : K → K} {u tol dt : K} {n : Nat} (hfl : RelErr fl u) (hdt : 0 < dt)
    (hu : 0 ≤ u) (htol : 4 * u ≤ tol) (htol0 : 0 < tol) (hfine : 2 * n * tol < 1) (m j : Nat)
    (hm0 : 0 < m) (hm : m ≤ n) (t : K) (ht : |t - m * dt| ≤ u * (m * dt)) :
    t < fl ((j : K) * dt + fl (|(j : K) * dt| * tol)) ↔ m ≤ j := by
  have hm1 : (1 : K) ≤ m := by exact_mod_cast hm0
  have hmn : (m : K) ≤ n := by exact_mod_cast hm
  have hj0 : (0 : K) ≤ j := Nat.cast_nonneg j
  have hjd : 0 ≤ (j : K) * dt := mul_nonneg hj0 hdt.le
  have htol2 : tol ≤ 1 / 2 := by nlinarith
  have hu8 : u ≤ 1 / 8 := by linarith
  rw [abs_of_nonneg hjd]
  have b1 := relErr_bounds hfl (x := (j : K) * dt * tol) (mul_nonneg hjd htol0.le)
  obtain ⟨q, hq⟩ : ∃ q, q = fl ((j : K) * dt * tol) := ⟨_, rfl⟩
  rw [← hq] at b1 ⊢
  have hq0 : 0 ≤ q := le_trans (mul_nonneg (by linarith) (mul_nonneg hjd htol0.le)) b1.1
  have b2 := relErr_bounds hfl (x := (j : K) * dt + q) (by linarith)
  obtain ⟨L, hL⟩ : ∃ L, L = fl ((j : K) * dt + q) := ⟨_, rfl⟩
  rw [← hL] at b2 ⊢
  have ht' := abs_le.1 ht
  constructor
  · intro h
    by_contra hc
    have hjm : (j : K) + 1 ≤ m := by exact_mod_cast (show j + 1 ≤ m by omega)
    -- an age below the time
    rcases Nat.eq_zero_or_pos j with rfl | hjpos
    · have hq1 : q ≤ 0 := by
        have := b1.2
        simpa using this
      have hL0 : L ≤ 0 := by
        have := b2.2
        have hz : q = 0 := le_antisymm hq1 hq0
        rw [hz] at this
        simpa using this
      have : (0 : K) < (1 - u) * (m * dt) :=
        mul_pos (by linarith) (mul_pos (by linarith) hdt)
      nlinarith [ht'.1]
    · have hj1 : (1 : K) ≤ j := by exact_mod_cast hjpos
      have h1 : L ≤ (1 + u) * ((j : K) * dt * (1 + (1 + u) * tol)) := by
        refine le_trans b2.2 (mul_le_mul_of_nonneg_left ?_ (by linarith))
        have := b1.2
        linarith
      have h2 : (1 - u) * (((j : K) + 1) * dt) ≤ (1 - u) * (m * dt) :=
        mul_le_mul_of_nonneg_left (mul_le_mul_of_nonneg_right hjm hdt.le) (by linarith)
      have h3 : (1 - u) * (((j : K) + 1) * dt) < (1 + u) * ((j : K) * dt * (1 + (1 + u) * tol)) := by
        have : (1 - u) * (m * dt) ≤ t := by linarith [ht'.1]
        linarith
      have h4 : (1 + u) * ((j : K) * dt * (1 + (1 + u) * tol)) =
          (j * (1 + u) * (1 + (1 + u) * tol)) * dt := by ring
      have h5 : (1 - u) * (((j : K) + 1) * dt) = ((1 - u) * (j + 1)) * dt := by ring
      rw [h4, h5] at h3
      have h6 := lt_of_mul_lt_mul_right h3 hdt.le
      have h7 := cut_above hu htol hj1 (show 2 * ((j : K) + 1) * tol < 1 by
        have : ((j : K) + 1) * tol ≤ n * tol := mul_le_mul_of_nonneg_right (by linarith) htol0.le
        linarith)
      linarith
  · intro h
    have hmj : (m : K) ≤ j := by exact_mod_cast h
    have h1 : (1 - u) * ((j : K) * dt * (1 + (1 - u) * tol)) ≤ L := by
      refine le_trans (mul_le_mul_of_nonneg_left ?_ (by linarith)) b2.1
      have := b1.1
      linarith
    have h2 : t ≤ (1 + u) * (j * dt) := by
      have a : t ≤ (1 + u) * (m * dt) := by linarith [ht'.2]
      exact a.trans (mul_le_mul_of_nonneg_left (mul_le_mul_of_nonneg_right hmj hdt.le)
        (by linarith))
    have h3 := cut_below hu htol htol0 htol2
    have h4 : 0 < (j : K) * dt := mul_pos (by linarith) hdt
    have h5 := mul_lt_mul_of_pos_right h3 h4
    have h6 : (1 - u) * (1 + (1 - u) * tol) * ((j : K) * dt) =
        (1 - u) * ((j : K) * dt * (1 + (1 - u) * tol)) := by ring
    linarith

/-- If the cut keeps the same rows, changing the times changes only the times. -/
theorem makeStratColFl_retime (fl : K → K) (agg : List K → K) (f : K → K)
    (thickMin tol age : K) (after : Bool) (steps : List (Step K))
    (hcut : ∀ s ∈ steps, f s.time < fl (age + fl (|age| * tol)) ↔
      s.time < fl (age + fl (|age| * tol))) :
    makeStratColFl fl agg thickMin tol after age (steps.map (Spec.Step.retime f)) =
      (makeStratColFl fl agg thickMin tol after age steps).map
        (List.map (Spec.StratRow.retime f)) := by
  unfold makeStratColFl
  rw [labelRows_retime]
  obtain ⟨rows, hrows⟩ : ∃ rows, rows = labelRows thickMin steps := ⟨_, rfl⟩
  have hmem : ∀ r ∈ rows, ∃ s ∈ steps, s.time = r.2.time := by
    intro r hr
    rw [hrows] at hr
    obtain ⟨s, hs, rfl⟩ := List.mem_map.1 hr
    exact ⟨s, hs, rfl⟩
  rw [← hrows]
  cases after with
  | false =>
    simp only [bind, Except.bind, Bool.false_eq_true, if_false, Except.map]
    rw [dropUnlabelled_retime, mergeAdjacentFl_retime, addDepthPctFl_retime]
  | true =>
    simp only [if_true]
    unfold cutAtAgeFl
    have hfil : (rows.map (fun r => (r.1, Row.retime f r.2))).filter
        (fun r => decide (r.2.time < fl (age + fl (|age| * tol)))) =
        (rows.filter (fun r => decide (r.2.time < fl (age + fl (|age| * tol))))).map
          (fun r => (r.1, Row.retime f r.2)) := by
      rw [List.filter_map]
      congr 1
      apply List.filter_congr
      intro r hr
      obtain ⟨s, hs, he⟩ := hmem r hr
      have hc := hcut s hs
      rw [he] at hc
      exact decide_eq_decide.2 hc
    rw [hfil]
    cases rows.filter (fun r => decide (r.2.time < fl (age + fl (|age| * tol)))) with
    | nil => rfl
    | cons r rest =>
      simp only [bind, Except.bind, Except.map, List.map_cons]
      have e : ((some "Formation age", Row.mk (Row.retime f r.2).time 0 0 "Formation age") ::
            (r.1, Row.retime f r.2) :: rest.map (fun r => (r.1, Row.retime f r.2))) =
          ((some "Formation age", Row.mk r.2.time 0 0 "Formation age") :: r :: rest).map
            (fun r => (r.1, Row.retime f r.2)) := rfl
      rw [e, dropUnlabelled_retime, mergeAdjacentFl_retime, addDepthPctFl_retime]

end MoonPIES
