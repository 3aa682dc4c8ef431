import Verif.Spec.EjBsedFig
import Verif.Lemmas.BasinThick
import Verif.Lemmas.ScaleFig
import Verif.Lemmas.Column

/-!
# C119: the figure of ejecta thickness and mixing depth by crater radius
-/

namespace MoonPIES

open Spec

/-- Radii are equally spaced on the logarithmic axis. -/
theorem geomspace_evenly (a b : ℝ) (n : Nat) (hn : 0 < n) (ha : 0 < a) (hb : 0 < b) :
    ∃ l, geomspace a b (n + 1) = .ok l ∧ LogSpaced n a b l := by
  unfold geomspace
  rw [if_pos ⟨ha, hb⟩]
  refine ⟨_, rfl, by simp, ?_⟩
  intro i x hx
  rw [List.getElem?_map, Option.map_eq_some_iff] at hx
  obtain ⟨j, hj, hx⟩ := hx
  obtain ⟨hi, hj⟩ := List.getElem?_eq_some_iff.1 hj
  rw [List.getElem_range] at hj
  subst hj
  rw [List.length_range] at hi
  split at hx
  · next h => subst hx; rw [h]; simpa using ha
  · split at hx
    · next h =>
      have : i = n := by omega
      subst this; subst hx
      exact ⟨hb, by ring⟩
    · subst hx
      refine ⟨Real.rpow_pos_of_pos (by norm_num) _, ?_⟩
      have hn' : (n : ℝ) ≠ 0 := by exact_mod_cast hn.ne'
      rw [← Real.rpow_natCast ((10 : ℝ) ^ _) n, ← Real.rpow_mul (by norm_num)]
      have la : (10 : ℝ) ^ Real.logb 10 a = a := Real.rpow_logb (by norm_num) (by norm_num) ha
      have lb : (10 : ℝ) ^ Real.logb 10 b = b := Real.rpow_logb (by norm_num) (by norm_num) hb
      obtain ⟨u, hu⟩ : ∃ u, u = Real.logb 10 a := ⟨_, rfl⟩
      obtain ⟨v, hv⟩ : ∃ v, v = Real.logb 10 b := ⟨_, rfl⟩
      rw [← hu] at la ⊢
      rw [← hv] at lb ⊢
      rw [← la, ← lb]
      simp only [← Real.rpow_natCast, ← Real.rpow_mul (show (0 : ℝ) ≤ 10 by norm_num),
        ← Real.rpow_add (show (0 : ℝ) < 10 by norm_num)]
      congr 1
      push_cast
      rw [show (n : ℝ) + 1 - 1 = n by ring]
      field_simp
      ring

theorem Spec.LogSpaced.between {n : Nat} {a b : ℝ} {l : List ℝ} (h : LogSpaced n a b l) (hn : 0 < n)
    (ha : 0 < a) (hab : a ≤ b) : ∀ x ∈ l, a ≤ x ∧ x ≤ b := by
  intro x hx
  obtain ⟨i, hi⟩ := List.mem_iff_getElem?.1 hx
  obtain ⟨h1, h2⟩ := h.2 i x hi
  have hil : i ≤ n := by
    have := (List.getElem?_eq_some_iff.1 hi).1
    rw [h.1] at this; omega
  have hai : 0 < a ^ i := by positivity
  have hp : a ^ i ≤ b ^ i := pow_le_pow_left₀ ha.le hab i
  constructor
  · refine le_of_pow_le_pow_left₀ hn.ne' h1.le (le_of_mul_le_mul_right ?_ hai)
    rw [h2, mul_comm]
    exact mul_le_mul_of_nonneg_right hp (by positivity)
  · refine le_of_pow_le_pow_left₀ hn.ne' (ha.le.trans hab) (le_of_mul_le_mul_right ?_ hai)
    rw [h2]
    have e1 : a ^ n = a ^ (n - i) * a ^ i := by rw [← pow_add]; congr 1; omega
    have e2 : b ^ n = b ^ i * b ^ (n - i) := by rw [← pow_add]; congr 1; omega
    have := pow_le_pow_left₀ ha.le hab (n - i)
    rw [e1, e2, ← mul_assoc]
    have hbi : 0 < b ^ i := by have := ha.trans_le hab; positivity
    exact mul_le_mul_of_nonneg_right (mul_le_mul_of_nonneg_left this hbi.le) hai.le

/-- Whether a crater is smaller than a distance is a matter of integer powers. -/
theorem Spec.LogSpaced.le_iff {n : Nat} {a b : ℝ} {l : List ℝ} (h : LogSpaced n a b l) (hn : 0 < n)
    (ha : 0 < a) {i : Nat} {x d : ℝ} (hi : l[i]? = some x) (hd : 0 ≤ d) :
    x ≤ d ↔ b ^ i * a ^ n ≤ d ^ n * a ^ i := by
  obtain ⟨h1, h2⟩ := h.2 i x hi
  rw [← h2, mul_le_mul_iff_left₀ (by positivity)]
  exact (pow_le_pow_iff_left₀ h1.le hd hn.ne').symm

/-- Each marker has the thickness of the law for its kind and the depth of ballistic mixing. -/
theorem markOf (c : EjFigCfg) (he : c.ej = EjCfg.default) (hp : c.petro = true)
    (hma : c.mixing_ratio_a = 0.0183) (hmb : c.mixing_ratio_b = 0.87) (k : EjKind) (d r : ℝ)
    (hr : (kindEnds k).1 ≤ r ∧ r ≤ (kindEnds k).2) (hd0 : 0 < d) (hd : d ≤ 1000000) :
    MarkOf k d (ejMark c d r) := by
  obtain ⟨mr, hmr⟩ : ∃ m, m = (if 0.0183 * (d * 1e-3) ^ (0.87 : ℝ) > 5 then
    0.5 * (0.0183 * (d * 1e-3) ^ (0.87 : ℝ)) + 2.5 else 0.0183 * (d * 1e-3) ^ (0.87 : ℝ)) := ⟨_, rfl⟩
  have hmix : mixingRatio c.petro c.mixing_ratio_a c.mixing_ratio_b (some d) = some mr := by
    rw [hp, hma, hmb, hmr]; rfl
  have hparts : PartsAt d mr := by
    refine ⟨_, rfl, ?_, ?_⟩
    · intro h
      rw [hmr, show d * 1e-3 = d / 1000 by ring, if_neg (not_lt.2 h)]
    · intro h
      rw [hmr, show d * 1e-3 = d / 1000 by ring, if_pos h]
      ring
  have key : r ≤ d → ∃ t, ejThickness c.ej (some d) r = .fin t ∧ 0 < t ∧ EjectaLaw k r d t := by
    intro hrd
    rw [he]
    cases k with
    | simple =>
      simp only [kindEnds] at hr
      refine ⟨_, thick_simple _ d r hd0 (by linarith) (by norm_num [EjCfg.default]; linarith)
        (by norm_num [EjCfg.default]), ?_, ?_⟩
      · have : 0 < r := by linarith
        positivity
      · have : 0 < r := by linarith
        simp only [EjectaLaw, EjCfg.default]
        rw [Real.rpow_neg (by positivity), show (3 : ℝ) = ((3 : ℕ) : ℝ) by norm_num, Real.rpow_natCast]
        field_simp
    | complex =>
      simp only [kindEnds] at hr
      have hr0 : 0 < r := by linarith
      refine ⟨_, thick_complex _ d r hd0 hr0 (by norm_num [EjCfg.default]; linarith)
        (by norm_num [EjCfg.default]; linarith), by positivity, ?_⟩
      simp only [EjectaLaw, EjCfg.default]
      rw [Real.rpow_neg (by positivity), show (3 : ℝ) = ((3 : ℕ) : ℝ) by norm_num, Real.rpow_natCast,
        show (3.74 : ℝ) = 0.74 + ((3 : ℕ) : ℝ) by norm_num, Real.rpow_add hr0, Real.rpow_natCast]
      field_simp
    | basin =>
      simp only [kindEnds] at hr
      have hR : final2transient EjCfg.default.simple2complex EjCfg.default.complex2peakring (r * 2) =
          f2tCroft (r * 2) := by
        unfold final2transient
        simp only []
        rw [if_pos (by norm_num [EjCfg.default]; linarith)]
      obtain ⟨c1, c2⟩ := f2tCroft_range (r * 2) (by linarith) (by linarith)
      have hpi := Real.pi_gt_three
      obtain ⟨t, t1, t2⟩ := C36_basin_positive_partial EjCfg.default d r _ (by linarith)
        (by norm_num [EjCfg.default]; linarith) rfl
        (by rw [hR]; norm_num [EjCfg.default]; linarith) (by norm_num [EjCfg.default])
        (by norm_num [EjCfg.default]) (by norm_num [EjCfg.default]) (by rw [hR]; linarith)
        (by norm_num [EjCfg.default]; linarith) (by linarith)
      refine ⟨t, t1, t2, ?_⟩
      have := basinEjecta_of (cfg := EjCfg.default) rfl rfl (by norm_num [EjCfg.default]) rfl rfl rfl d r t
        (by linarith) (by linarith) hrd (by linarith) t1
      simp only [EjectaLaw]
      rwa [mul_comm]
  unfold ejMark
  simp only [hmix]
  by_cases hrd : d < r
  · refine ⟨0, mr, ?_, hparts, ?_, fun _ => rfl, fun h => absurd h (not_le.2 hrd)⟩
    · exact if_pos hrd
    · change Flt.smul mr (if d < r then _ else _) = _
      rw [if_pos hrd]; rfl
  · obtain ⟨t, t1, t2, t3⟩ := key (not_lt.1 hrd)
    refine ⟨t, mr, ?_, hparts, ?_, fun h => absurd h hrd, fun _ => ⟨t2, t3⟩⟩
    · exact (if_neg hrd).trans t1
    · change Flt.smul mr (if d < r then _ else _) = _
      rw [if_neg hrd, t1]; rfl

theorem ejBsedRadii_ok (k : EjKind) :
    ∃ l, ejBsedRadii EjCfg.default k = .ok l ∧ LogSpaced 9 (kindEnds k).1 (kindEnds k).2 l := by
  cases k
  · obtain ⟨l, h1, h2⟩ := geomspace_evenly 100 8990 9 (by norm_num) (by norm_num) (by norm_num)
    refine ⟨l, ?_, h2⟩
    rw [← h1]; norm_num [ejBsedRadii, EjCfg.default]
  · obtain ⟨l, h1, h2⟩ := geomspace_evenly 9010 69990 9 (by norm_num) (by norm_num) (by norm_num)
    refine ⟨l, ?_, h2⟩
    rw [← h1]; norm_num [ejBsedRadii, EjCfg.default]
  · obtain ⟨l, h1, h2⟩ := geomspace_evenly 70010 660000 9 (by norm_num) (by norm_num) (by norm_num)
    refine ⟨l, ?_, h2⟩
    rw [← h1]; norm_num [ejBsedRadii, EjCfg.default]

theorem ejBsedFigure_ok (c : EjFigCfg) (he : c.ej = EjCfg.default) :
    ∃ fig, ejBsedFigure c = .ok fig ∧ List.Forall₂ (fun (k : ℝ × EjKind) (s : EjSeries) =>
      s.dist = k.1 ∧ s.kind = k.2 ∧ ∃ rads, LogSpaced 9 (kindEnds k.2).1 (kindEnds k.2).2 rads ∧
        s.marks = rads.map (ejMark c k.1) ∧
        (k.2 ≠ .simple → s.text = none) ∧
        (k.2 = .simple → s.text = some ((60, (ejMark c k.1 100).thick), (60, (ejMark c k.1 100).depth))))
      seriesKeys fig := by
  obtain ⟨rs, s1, s2⟩ := ejBsedRadii_ok .simple
  obtain ⟨rc, c1, c2⟩ := ejBsedRadii_ok .complex
  obtain ⟨rb, b1, b2⟩ := ejBsedRadii_ok .basin
  obtain ⟨tl, rfl⟩ : ∃ tl, rs = 100 :: tl := by
    cases hrs : rs with
    | nil => rw [hrs] at s2; exact absurd s2.1 (by simp)
    | cons x tl =>
      obtain ⟨h1, h2⟩ := s2.2 0 x (by rw [hrs]; rfl)
      simp only [kindEnds, pow_zero, mul_one, one_mul] at h2
      have : x = 100 := (pow_left_inj₀ h1.le (by norm_num) (by norm_num)).1 h2
      rw [this]
      exact ⟨tl, rfl⟩
  have hs : ∀ d, ejSeries c d .simple (100 :: tl) = .ok ⟨d, .simple, (100 :: tl).map (ejMark c d),
      some ((60, (ejMark c d 100).thick), (60, (ejMark c d 100).depth))⟩ := by
    intro d
    unfold ejSeries
    rw [if_pos rfl]
    change Except.ok (⟨d, _, _, some (((100 : ℝ) - 40, _), ((100 : ℝ) - 40, _))⟩ : EjSeries) = _
    rw [show (100 : ℝ) - 40 = 60 by norm_num]
  have hc : ∀ d, ejSeries c d .complex rc = .ok ⟨d, .complex, rc.map (ejMark c d), none⟩ := fun d => rfl
  have hb : ∀ d, ejSeries c d .basin rb = .ok ⟨d, .basin, rb.map (ejMark c d), none⟩ := fun d => rfl
  have hrow : ∀ d, [(EjKind.simple, 100 :: tl), (.complex, rc), (.basin, rb)].mapM (fun p =>
      ejSeries c d p.1 p.2) = .ok [⟨d, .simple, (100 :: tl).map (ejMark c d),
        some ((60, (ejMark c d 100).thick), (60, (ejMark c d 100).depth))⟩,
        ⟨d, .complex, rc.map (ejMark c d), none⟩, ⟨d, .basin, rb.map (ejMark c d), none⟩] := by
    intro d
    simp only [List.mapM_cons, List.mapM_nil, hs, hc, hb, bind, Except.bind, pure, Except.pure]
  obtain ⟨S, hS⟩ : ∃ S : ℝ → List EjSeries, S = fun d => [⟨d, .simple, (100 :: tl).map (ejMark c d),
        some ((60, (ejMark c d 100).thick), (60, (ejMark c d 100).depth))⟩,
        ⟨d, .complex, rc.map (ejMark c d), none⟩, ⟨d, .basin, rb.map (ejMark c d), none⟩] := ⟨_, rfl⟩
  have hok : ejBsedFigure c = .ok (S 1000 ++ (S 10000 ++ (S 100000 ++ S 1000000))) := by
    unfold ejBsedFigure
    rw [he]
    simp only [s1, c1, b1, hrow, ejBsedDists, List.mapM_cons, List.mapM_nil, bind, Except.bind, pure,
      Except.pure, hS]
    norm_num
  refine ⟨_, hok, ?_⟩
  have hR : ∀ d : ℝ, List.Forall₂ (fun (k : ℝ × EjKind) (s : EjSeries) =>
      s.dist = k.1 ∧ s.kind = k.2 ∧ ∃ rads, LogSpaced 9 (kindEnds k.2).1 (kindEnds k.2).2 rads ∧
        s.marks = rads.map (ejMark c k.1) ∧
        (k.2 ≠ .simple → s.text = none) ∧
        (k.2 = .simple → s.text = some ((60, (ejMark c k.1 100).thick), (60, (ejMark c k.1 100).depth))))
      [(d, .simple), (d, .complex), (d, .basin)] (S d) := by
    intro d
    rw [hS]
    refine .cons ⟨rfl, rfl, _, s2, rfl, fun h => absurd rfl h, fun _ => rfl⟩
      (.cons ⟨rfl, rfl, _, c2, rfl, fun _ => rfl, fun h => nomatch h⟩
        (.cons ⟨rfl, rfl, _, b2, rfl, fun _ => rfl, fun h => nomatch h⟩ .nil))
  exact List.rel_append (hR 1000) (List.rel_append (hR 10000) (List.rel_append (hR 100000) (hR 1000000)))

/-- **C119** the figure has ten craters of each kind at each distance, equally spaced on the axis of
radii and within the limits of their kind.  A marker has the thickness of ejecta by the law of its kind
and the depth of ballistic mixing if the distance is outside the crater, and zero, which a logarithmic
axis does not show, if it is inside.  The text beside simple craters is at that of the smallest. -/
theorem C119_markers (c : EjFigCfg) (he : c.ej = EjCfg.default) (hp : c.petro = true)
    (hma : c.mixing_ratio_a = 0.0183) (hmb : c.mixing_ratio_b = 0.87) :
    ∃ fig, ejBsedFigure c = .ok fig ∧ List.Forall₂ (fun (k : ℝ × EjKind) (s : EjSeries) =>
      s.dist = k.1 ∧ s.kind = k.2 ∧
        LogSpaced 9 (kindEnds k.2).1 (kindEnds k.2).2 (s.marks.map (·.rad)) ∧
        (∀ m ∈ s.marks, MarkOf k.2 k.1 m) ∧
        (k.2 ≠ .simple → s.text = none) ∧
        (k.2 = .simple → ∃ m t dep, s.marks.head? = some m ∧ m.rad = 100 ∧ m.thick = .fin t ∧
          m.depth = .fin dep ∧ 0 < t ∧ 0 < dep ∧ s.text = some ((60, .fin t), (60, .fin dep))))
      seriesKeys fig := by
  obtain ⟨fig, h1, h2⟩ := ejBsedFigure_ok c he
  refine ⟨fig, h1, ?_⟩
  rw [forall₂_iff_getElem?] at h2 ⊢
  refine ⟨h2.1, fun i k s hk hs => ?_⟩
  obtain ⟨e1, e2, rads, e3, e4, e5, e6⟩ := h2.2 i k s hk hs
  have hkm := List.mem_of_getElem? hk
  have hd : 1000 ≤ k.1 ∧ k.1 ≤ 1000000 := by
    simp only [seriesKeys, List.mem_cons, List.not_mem_nil, or_false] at hkm
    rcases hkm with h | h | h | h | h | h | h | h | h | h | h | h <;> rw [h] <;> norm_num
  have hends : 0 < (kindEnds k.2).1 ∧ (kindEnds k.2).1 ≤ (kindEnds k.2).2 := by
    cases k.2 <;> norm_num [kindEnds]
  have hmarks : ∀ m ∈ s.marks, MarkOf k.2 k.1 m := by
    intro m hm
    rw [e4] at hm
    obtain ⟨r, hr, rfl⟩ := List.mem_map.1 hm
    exact markOf c he hp hma hmb k.2 k.1 r (e3.between (by norm_num) hends.1 hends.2 r hr)
      (by linarith [hd.1]) hd.2
  refine ⟨e1, e2, ?_, hmarks, e5, ?_⟩
  · rw [e4, List.map_map]
    have : (fun m : EjMark => m.rad) ∘ ejMark c k.1 = id := rfl
    rw [this, List.map_id]; exact e3
  · intro hk
    obtain ⟨t, mr, m1, ⟨o, m2, m3, m4⟩, m5, -, m6⟩ := markOf c he hp hma hmb .simple k.1 100
      (by norm_num [kindEnds]) (by linarith [hd.1]) hd.2
    have hpos := (m6 (by change (100 : ℝ) ≤ _; linarith [hd.1])).1
    have ho : 0 < o := by
      rw [m2]
      have : 0 < k.1 / 1000 := by linarith [hd.1]
      positivity
    have hmr : 0 < mr := by
      rcases le_or_gt o 5 with h | h
      · rw [m3 h]; exact ho
      · rw [m4 h]; linarith
    refine ⟨ejMark c k.1 100, t, mr * t, ?_, rfl, m1, m5, hpos, by positivity, ?_⟩
    · rw [e4, List.head?_map]
      cases hr : rads with
      | nil => rw [hr] at e3; exact absurd e3.1 (by simp)
      | cons x tl =>
        obtain ⟨h1, h2⟩ := e3.2 0 x (by rw [hr]; rfl)
        rw [hk] at h2
        simp only [kindEnds, pow_zero, mul_one, one_mul] at h2
        have : x = 100 := (pow_left_inj₀ h1.le (by norm_num) (by norm_num)).1 h2
        rw [this]; rfl
    · rw [e6 hk, m1, m5]

/-- How many markers of each series are on the axes. -/
def shownMarks : List (Nat × Nat × Nat × Nat) :=
  [(1000, 100, 8990, 5), (1000, 9010, 69990, 0), (1000, 70010, 660000, 0), (10000, 100, 8990, 10),
    (10000, 9010, 69990, 1), (10000, 70010, 660000, 0), (100000, 100, 8990, 10),
    (100000, 9010, 69990, 10), (100000, 70010, 660000, 2), (1000000, 100, 8990, 10),
    (1000000, 9010, 69990, 10), (1000000, 70010, 660000, 10)]

theorem shown_check : ∀ e ∈ shownMarks, ∀ i < 10,
    (e.2.2.1 ^ i * e.2.1 ^ 9 ≤ e.1 ^ 9 * e.2.1 ^ i ↔ i < e.2.2.2) := by decide +kernel

theorem shown_keys : List.Forall₂ (fun (k : ℝ × EjKind) (e : Nat × Nat × Nat × Nat) =>
    k.1 = e.1 ∧ (kindEnds k.2).1 = e.2.1 ∧ (kindEnds k.2).2 = e.2.2.1) seriesKeys shownMarks := by
  unfold seriesKeys shownMarks kindEnds
  repeat' constructor

/-- **C119** 68 of the 120 markers are drawn: five simple craters at 1 km, all of them and one complex
crater at 10 km, all simple and complex craters and two basins at 100 km, and all craters at 1000 km. -/
theorem C119_shown (c : EjFigCfg) (he : c.ej = EjCfg.default) (hp : c.petro = true)
    (hma : c.mixing_ratio_a = 0.0183) (hmb : c.mixing_ratio_b = 0.87) :
    ∃ fig, ejBsedFigure c = .ok fig ∧ List.Forall₂ (fun (s : EjSeries) (n : Nat) =>
      ∀ (i : Nat) m, s.marks[i]? = some m → ((∃ t, m.thick = .fin t ∧ 0 < t) ↔ i < n))
      fig [5, 0, 0, 10, 1, 0, 10, 10, 2, 10, 10, 10] := by
  obtain ⟨fig, h1, h2⟩ := C119_markers c he hp hma hmb
  refine ⟨fig, h1, ?_⟩
  have hk := shown_keys
  rw [forall₂_iff_getElem?] at h2 hk
  change List.Forall₂ _ fig (shownMarks.map (·.2.2.2))
  rw [forall₂_iff_getElem?]
  refine ⟨by rw [List.length_map, ← hk.1, h2.1], ?_⟩
  intro j s n hs hn i m hm
  rw [List.getElem?_map, Option.map_eq_some_iff] at hn
  obtain ⟨e, he', rfl⟩ := hn
  obtain ⟨k, hkj⟩ : ∃ k, seriesKeys[j]? = some k :=
    ⟨_, List.getElem?_eq_getElem (by rw [hk.1]; exact (List.getElem?_eq_some_iff.1 he').1)⟩
  obtain ⟨k1, k2, k3⟩ := hk.2 j k e hkj he'
  obtain ⟨-, -, e3, e4, -⟩ := h2.2 j k s hkj hs
  have hi : i < 10 := by
    have h := e3.1
    rw [List.length_map] at h
    have := (List.getElem?_eq_some_iff.1 hm).1
    omega
  have hpos : 0 < (kindEnds k.2).1 := by cases k.2 <;> norm_num [kindEnds]
  have hle := e3.le_iff (by norm_num) hpos (i := i) (x := m.rad) (d := k.1)
    (by rw [List.getElem?_map, hm]; rfl) (by rw [k1]; positivity)
  rw [k1, k2, k3] at hle
  have hnat := shown_check e (List.mem_of_getElem? he') i hi
  have hiff : m.rad ≤ e.1 ↔ i < e.2.2.2 := by
    rw [hle, ← hnat]
    exact_mod_cast Iff.rfl
  obtain ⟨t, mr, m1, -, -, m2, m3⟩ := e4 m (List.mem_of_getElem? hm)
  rw [k1] at m2 m3
  rw [← hiff]
  constructor
  · rintro ⟨t', t1, t2⟩
    by_contra hc
    rw [m1, Flt.fin.injEq] at t1
    have := m2 (not_le.1 hc)
    linarith
  · intro h
    exact ⟨t, m1, (m3 h).1⟩

/-- Mixing ratios at the four distances. -/
theorem parts_at (m : ℝ) : (PartsAt 1000 m → 0 < m ∧ m < 0.02) ∧ (PartsAt 10000 m → 0 < m ∧ m < 0.2) ∧
    (PartsAt 100000 m → 1 < m ∧ m < 1.01) ∧ (PartsAt 1000000 m → 6 < m ∧ m < 6.5) := by
  refine ⟨?_, ?_, ?_, ?_⟩ <;> rintro ⟨o, ho, h1, h2⟩
  · rw [show (1000 : ℝ) / 1000 = 1 by norm_num, Real.one_rpow] at ho
    rw [h1 (by rw [ho]; norm_num), ho]; norm_num
  · rw [show (10000 : ℝ) / 1000 = 10 by norm_num] at ho
    obtain ⟨y, hy⟩ : ∃ y, y = (10 : ℝ) ^ (0.87 : ℝ) := ⟨_, rfl⟩
    have h0 : 0 < y := by rw [hy]; positivity
    have hp : y ^ 100 = 10 ^ 87 := by
      rw [hy, ← Real.rpow_natCast, ← Real.rpow_mul (by norm_num)]; norm_num
    have : y < 10 := lt_of_pow_lt_pow_left₀ 100 (by norm_num) (by rw [hp]; norm_num)
    rw [← hy] at ho
    rw [h1 (by rw [ho]; linarith), ho]
    constructor <;> linarith
  · rw [show (100000 : ℝ) / 1000 = 100 by norm_num] at ho
    obtain ⟨y, hy⟩ : ∃ y, y = (100 : ℝ) ^ (0.87 : ℝ) := ⟨_, rfl⟩
    have h0 : 0 < y := by rw [hy]; positivity
    have hp : y ^ 100 = 100 ^ 87 := by
      rw [hy, ← Real.rpow_natCast, ← Real.rpow_mul (by norm_num)]; norm_num
    have a : 54.65 < y := lt_of_pow_lt_pow_left₀ 100 h0.le (by rw [hp]; norm_num)
    have b : y < 55.1 := lt_of_pow_lt_pow_left₀ 100 (by norm_num) (by rw [hp]; norm_num)
    rw [← hy] at ho
    rw [h1 (by rw [ho]; linarith), ho]
    constructor <;> linarith
  · rw [show (1000000 : ℝ) / 1000 = 1000 by norm_num] at ho
    obtain ⟨y, hy⟩ : ∃ y, y = (1000 : ℝ) ^ (0.87 : ℝ) := ⟨_, rfl⟩
    have h0 : 0 < y := by rw [hy]; positivity
    have hp : y ^ 100 = 1000 ^ 87 := by
      rw [hy, ← Real.rpow_natCast, ← Real.rpow_mul (by norm_num)]; norm_num
    have a : 390 < y := lt_of_pow_lt_pow_left₀ 100 h0.le (by rw [hp]; norm_num)
    have b : y < 430 := lt_of_pow_lt_pow_left₀ 100 (by norm_num) (by rw [hp]; norm_num)
    rw [← hy] at ho
    rw [h2 (by rw [ho]; linarith), ho]
    constructor <;> linarith

theorem partsAt_unique {d m m' : ℝ} (h : PartsAt d m) (h' : PartsAt d m') : m = m' := by
  obtain ⟨o, rfl, h1, h2⟩ := h
  obtain ⟨o', rfl, h1', h2'⟩ := h'
  rcases le_or_gt (0.0183 * (d / 1000) ^ (0.87 : ℝ)) 5 with h | h
  · rw [h1 h, h1' h]
  · rw [h2 h, h2' h]

/-- **C119** at the same distance the mixing depth is the same multiple of the thickness for every
crater: less than it at 1 and 10 km and more at 100 and 1000 km. -/
theorem C119_deeper (c : EjFigCfg) (he : c.ej = EjCfg.default) (hp : c.petro = true)
    (hma : c.mixing_ratio_a = 0.0183) (hmb : c.mixing_ratio_b = 0.87) :
    ∃ fig, ejBsedFigure c = .ok fig ∧ ∀ s ∈ fig, ∃ mr,
      (∀ m ∈ s.marks, ∃ t, m.thick = .fin t ∧ m.depth = .fin (mr * t)) ∧
      ((s.dist = 1000 ∧ 0 < mr ∧ mr < 0.02) ∨ (s.dist = 10000 ∧ 0 < mr ∧ mr < 0.2) ∨
        (s.dist = 100000 ∧ 1 < mr ∧ mr < 1.01) ∨ (s.dist = 1000000 ∧ 6 < mr ∧ mr < 6.5)) := by
  obtain ⟨fig, h1, h2⟩ := C119_markers c he hp hma hmb
  refine ⟨fig, h1, ?_⟩
  rw [forall₂_iff_getElem?] at h2
  intro s hs
  obtain ⟨j, hj⟩ := List.mem_iff_getElem?.1 hs
  have hjl : j < seriesKeys.length := by rw [h2.1]; exact (List.getElem?_eq_some_iff.1 hj).1
  obtain ⟨e1, -, -, e4, -⟩ := h2.2 j _ s (List.getElem?_eq_getElem hjl) hj
  obtain ⟨k, hk⟩ : ∃ k, k = seriesKeys[j] := ⟨_, rfl⟩
  rw [← hk] at e1 e4
  have hkm : k ∈ seriesKeys := hk ▸ List.getElem_mem hjl
  obtain ⟨mr, hmr⟩ : ∃ m, PartsAt k.1 m := by
    rcases le_or_gt (0.0183 * (k.1 / 1000) ^ (0.87 : ℝ)) 5 with h | h
    · exact ⟨_, _, rfl, fun _ => rfl, fun h' => absurd h (not_le.2 h')⟩
    · exact ⟨_, _, rfl, fun h' => absurd h (not_lt.2 h'), fun _ => rfl⟩
  refine ⟨mr, fun m hm => ?_, ?_⟩
  · obtain ⟨t, mr', m1, m2, m3, -⟩ := e4 m hm
    exact ⟨t, m1, by rw [m3, partsAt_unique m2 hmr]⟩
  · rw [e1]
    obtain ⟨p1, p2, p3, p4⟩ := parts_at mr
    have : k.1 = 1000 ∨ k.1 = 10000 ∨ k.1 = 100000 ∨ k.1 = 1000000 := by
      simp only [seriesKeys, List.mem_cons, List.not_mem_nil, or_false] at hkm
      rcases hkm with h | h | h | h | h | h | h | h | h | h | h | h <;> rw [h] <;> norm_num
    rcases this with h | h | h | h <;> rw [h] at hmr
    · exact Or.inl ⟨h, p1 hmr⟩
    · exact Or.inr (Or.inl ⟨h, p2 hmr⟩)
    · exact Or.inr (Or.inr (Or.inl ⟨h, p3 hmr⟩))
    · exact Or.inr (Or.inr (Or.inr ⟨h, p4 hmr⟩))

/-- **C119** larger simple or complex craters have thicker ejecta at the same distance, on one straight
line of the logarithmic axes for each kind. -/
theorem C119_larger (k : EjKind) (hk : k ≠ .basin) (d : ℝ) (hd : 0 < d) (m m' : EjMark)
    (h : MarkOf k d m) (h' : MarkOf k d m') (h0 : 0 < m.rad) (hlt : m.rad < m'.rad) (hle : m'.rad ≤ d) :
    ∃ t t', m.thick = .fin t ∧ m'.thick = .fin t' ∧ 0 < t ∧ t < t' ∧
      Real.log t' - Real.log t =
        (if k = .simple then 4 else 3.74) * (Real.log m'.rad - Real.log m.rad) := by
  obtain ⟨t, mr, a1, -, -, -, a2⟩ := h
  obtain ⟨t', mr', b1, -, -, -, b2⟩ := h'
  obtain ⟨a3, a4⟩ := a2 (hlt.le.trans hle)
  obtain ⟨b3, b4⟩ := b2 hle
  have h0' : 0 < m'.rad := h0.trans hlt
  have ll : Real.log m.rad < Real.log m'.rad := Real.log_lt_log h0 hlt
  have key : Real.log t' - Real.log t =
      (if k = .simple then 4 else 3.74) * (Real.log m'.rad - Real.log m.rad) := by
    cases k with
    | basin => exact absurd rfl hk
    | simple =>
      simp only [EjectaLaw] at a4 b4
      have a5 := congrArg Real.log a4
      have b5 := congrArg Real.log b4
      rw [Real.log_mul (by positivity) (by positivity), Real.log_mul (by norm_num) (by positivity),
        Real.log_pow, Real.log_pow] at a5 b5
      push_cast at a5 b5
      simp only [if_true]
      linarith
    | complex =>
      simp only [EjectaLaw] at a4 b4
      have a5 := congrArg Real.log a4
      have b5 := congrArg Real.log b4
      rw [Real.log_mul (by positivity) (by positivity), Real.log_mul (by norm_num) (by positivity),
        Real.log_pow, Real.log_rpow (by assumption)] at a5 b5
      push_cast at a5 b5
      rw [if_neg (by simp)]
      linarith
  refine ⟨t, t', a1, b1, a3, ?_, key⟩
  have : Real.log t < Real.log t' := by
    have : 0 < Real.log t' - Real.log t := by
      rw [key]; split <;> nlinarith
    linarith
  exact (Real.log_lt_log_iff a3 b3).1 this

/-! ## The default configuration -/

/-- The default configuration of the figure. -/
noncomputable def ejBsedDefault : EjFigCfg := ⟨EjCfg.default, 1700, true, 0.0183, 0.87⟩

example : ∃ fig, ejBsedFigure ejBsedDefault = .ok fig ∧ fig.length = 12 := by
  obtain ⟨fig, h1, h2⟩ := C119_markers ejBsedDefault rfl rfl rfl rfl
  exact ⟨fig, h1, by rw [← h2.length_eq]; rfl⟩

example : ∃ fig s m t, ejBsedFigure ejBsedDefault = .ok fig ∧ fig[8]? = some s ∧ s.marks[1]? = some m ∧
    m.thick = .fin t ∧ 0 < t := by
  obtain ⟨fig, h1, h2⟩ := C119_shown ejBsedDefault rfl rfl rfl rfl
  obtain ⟨fig', h1', h2'⟩ := C119_markers ejBsedDefault rfl rfl rfl rfl
  rw [h1] at h1'; cases h1'
  rw [forall₂_iff_getElem?] at h2 h2'
  have hl : fig.length = 12 := h2.1
  have hs : fig[8]? = some (fig[8]'(by omega)) := List.getElem?_eq_getElem _
  obtain ⟨-, -, e, -⟩ := h2'.2 8 _ _ rfl hs
  have hm : (fig[8]'(by omega)).marks.length = 10 := by
    have := e.1; rwa [List.length_map] at this
  have hm1 : (fig[8]'(by omega)).marks[1]? = some ((fig[8]'(by omega)).marks[1]'(by omega)) :=
    List.getElem?_eq_getElem _
  obtain ⟨t, t1, t2⟩ := (h2.2 8 _ 2 hs rfl 1 _ hm1).2 (by norm_num)
  exact ⟨fig, _, _, t, h1, hs, hm1, t1, t2⟩

example : ∃ fig, ejBsedFigure ejBsedDefault = .ok fig ∧ ∀ s ∈ fig, 50000 < s.dist → ∀ m ∈ s.marks,
    ∃ t dep, m.thick = .fin t ∧ m.depth = .fin dep ∧ (0 < t → t < dep) := by
  obtain ⟨fig, h1, h2⟩ := C119_deeper ejBsedDefault rfl rfl rfl rfl
  refine ⟨fig, h1, fun s hs hd m hm => ?_⟩
  obtain ⟨mr, h3, h4⟩ := h2 s hs
  obtain ⟨t, h5, h6⟩ := h3 m hm
  refine ⟨t, _, h5, h6, fun ht => ?_⟩
  have : 1 < mr := by
    rcases h4 with h | h | h | h
    · linarith [h.1]
    · linarith [h.1]
    · exact h.2.1
    · linarith [h.2.1]
  nlinarith

/-- C119 for two complex craters. -/
example : ∃ t t', (ejMark ejBsedDefault 100000 10000).thick = .fin t ∧
    (ejMark ejBsedDefault 100000 20000).thick = .fin t' ∧ 0 < t ∧ t < t' := by
  obtain ⟨t, t', h1, h2, h3, h4, -⟩ := C119_larger .complex (by simp) 100000 (by norm_num) _ _
    (markOf ejBsedDefault rfl rfl rfl rfl .complex 100000 10000 (by norm_num [kindEnds]) (by norm_num)
      (by norm_num))
    (markOf ejBsedDefault rfl rfl rfl rfl .complex 100000 20000 (by norm_num [kindEnds]) (by norm_num)
      (by norm_num)) (by norm_num [ejMark]) (by norm_num [ejMark]) (by norm_num [ejMark])
  exact ⟨t, t', h1, h2, h3, h4⟩

end MoonPIES
