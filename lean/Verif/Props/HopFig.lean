import Verif.Model.HopFig
import Verif.Model.Main
import Verif.Spec.HopFig
import Verif.Lemmas.Shipped

/-!
# C105: the figure of ballistic hop efficiencies
-/

namespace MoonPIES

open Spec

theorem sum_lin (pts : List (ℝ × ℝ)) (f g : ℝ × ℝ → ℝ) (c d : ℝ) :
    (pts.map fun p => c * f p + d * g p).sum = c * (pts.map f).sum + d * (pts.map g).sum := by
  induction pts with
  | nil => simp
  | cons p l ih => simp only [List.map_cons, List.sum_cons, ih]; ring

theorem sum_sq_nonneg (pts : List (ℝ × ℝ)) (f : ℝ × ℝ → ℝ) : 0 ≤ (pts.map fun p => f p ^ 2).sum := by
  apply List.sum_nonneg
  intro x hx
  obtain ⟨p, -, rfl⟩ := List.mem_map.1 hx
  positivity

theorem sum_sq_zero (pts : List (ℝ × ℝ)) (f : ℝ × ℝ → ℝ) (h : (pts.map fun p => f p ^ 2).sum = 0) :
    ∀ p ∈ pts, f p = 0 := by
  induction pts with
  | nil => simp
  | cons q l ih =>
    rw [List.map_cons, List.sum_cons] at h
    have h1 := sum_sq_nonneg l f
    have h2 : 0 ≤ f q ^ 2 := by positivity
    intro p hp
    rcases List.mem_cons.1 hp with rfl | hp
    · have : f p ^ 2 = 0 := by linarith
      exact pow_eq_zero_iff (two_ne_zero) |>.1 this
    · exact ih (by linarith) p hp

/-- The fitted line is the best one. -/
theorem polyfit1_best (pts : List (ℝ × ℝ)) (p q : ℝ × ℝ) (hp : p ∈ pts) (hq : q ∈ pts)
    (hpq : p.1 ≠ q.1) : BestLine pts (polyfit1 pts).1 (polyfit1 pts).2 := by
  obtain ⟨n, hn⟩ : ∃ t, t = (pts.length : ℝ) := ⟨_, rfl⟩
  have hn0 : n ≠ 0 := by
    rw [hn]
    have := List.length_pos_of_mem hp
    positivity
  obtain ⟨mx, hmx⟩ : ∃ t, t = (pts.map (·.1)).sum / n := ⟨_, rfl⟩
  obtain ⟨my, hmy⟩ : ∃ t, t = (pts.map (·.2)).sum / n := ⟨_, rfl⟩
  obtain ⟨S, hS⟩ : ∃ t, t = (pts.map fun p => (p.1 - mx) * p.1).sum := ⟨_, rfl⟩
  obtain ⟨T, hT⟩ : ∃ t, t = (pts.map fun p => (p.1 - mx) * p.2).sum := ⟨_, rfl⟩
  have hfit : polyfit1 pts = (T / S, my - T / S * mx) := by
    rw [hT, hS, hmy, hmx, hn]; rfl
  have one : (pts.map fun _ => (1 : ℝ)).sum = n := by rw [hn]; simp
  have sx : (pts.map (·.1)).sum = n * mx := by rw [hmx]; field_simp
  have sy : (pts.map (·.2)).sum = n * my := by rw [hmy]; field_simp
  have hcentre : (pts.map fun p => p.1 - mx).sum = 0 := by
    have := sum_lin pts (·.1) (fun _ => 1) 1 (-mx)
    rw [sx, one] at this
    rw [show (fun p : ℝ × ℝ => p.1 - mx) = fun p => 1 * p.1 + -mx * 1 by funext p; ring, this]
    ring
  have hSsq : S = (pts.map fun p => (p.1 - mx) ^ 2).sum := by
    have := sum_lin pts (fun p => (p.1 - mx) * p.1) (fun p => p.1 - mx) 1 (-mx)
    rw [← hS, hcentre] at this
    rw [show (fun p : ℝ × ℝ => (p.1 - mx) ^ 2) = fun p => 1 * ((p.1 - mx) * p.1) + -mx * (p.1 - mx) by
      funext p; ring, this]
    ring
  have hS0 : S ≠ 0 := by
    intro h0
    rw [hSsq] at h0
    have e := sum_sq_zero pts (fun p => p.1 - mx) h0
    exact hpq (by linarith [e p hp, e q hq])
  rw [hfit]
  obtain ⟨a, ha⟩ : ∃ t, t = T / S := ⟨_, rfl⟩
  have haS : a * S = T := by rw [ha]; field_simp
  rw [← ha]
  simp only
  -- the residuals are orthogonal to lines
  obtain ⟨e, he⟩ : ∃ e : ℝ × ℝ → ℝ, e = fun p => p.2 - (a * p.1 + (my - a * mx)) := ⟨_, rfl⟩
  have e0 : (pts.map e).sum = 0 := by
    have h1 := sum_lin pts (·.2) (fun p => p.1 - mx) 1 (-a)
    have h2 := sum_lin pts (fun p => 1 * p.2 + -a * (p.1 - mx)) (fun _ => 1) 1 (-my)
    rw [h1, sy, hcentre, one] at h2
    rw [show e = fun p => 1 * (1 * p.2 + -a * (p.1 - mx)) + -my * 1 by rw [he]; funext p; ring, h2]
    ring
  have e1 : (pts.map fun p => (p.1 - mx) * e p).sum = 0 := by
    have h1 := sum_lin pts (fun p => (p.1 - mx) * p.2) (fun p => (p.1 - mx) ^ 2) 1 (-a)
    have h2 := sum_lin pts (fun p => 1 * ((p.1 - mx) * p.2) + -a * ((p.1 - mx) ^ 2)) (fun p => p.1 - mx) 1 (-my)
    rw [h1, hcentre, ← hT, ← hSsq] at h2
    rw [show (fun p => (p.1 - mx) * e p) =
      fun p => 1 * (1 * ((p.1 - mx) * p.2) + -a * ((p.1 - mx) ^ 2)) + -my * (p.1 - mx) by
        rw [he]; funext p; ring, h2]
    linarith
  intro a' b' hne
  obtain ⟨l, hl⟩ : ∃ l : ℝ × ℝ → ℝ, l = fun p => (a - a') * p.1 + (my - a * mx - b') := ⟨_, rfl⟩
  have hsum : sqDist pts a' b' = sqDist pts a (my - a * mx) + (pts.map fun p => l p ^ 2).sum := by
    have h1 := sum_lin pts (fun p => e p ^ 2) (fun p => l p ^ 2) 1 1
    have h2 := sum_lin pts (fun p => (p.1 - mx) * e p) e (2 * (a - a')) (2 * (my - a' * mx - b'))
    have h3 := sum_lin pts (fun p => 1 * e p ^ 2 + 1 * l p ^ 2)
      (fun p => 2 * (a - a') * ((p.1 - mx) * e p) + 2 * (my - a' * mx - b') * e p) 1 1
    rw [h1, h2, e0, e1] at h3
    unfold sqDist
    rw [show (fun p : ℝ × ℝ => (p.2 - (a' * p.1 + b')) ^ 2) = fun p =>
      1 * (1 * e p ^ 2 + 1 * l p ^ 2) + 1 * (2 * (a - a') * ((p.1 - mx) * e p) +
        2 * (my - a' * mx - b') * e p) by rw [he, hl]; funext p; ring, h3, he]
    ring
  rw [hsum]
  have hnn := sum_sq_nonneg pts l
  rcases hnn.lt_or_eq with h | h
  · linarith
  · exfalso
    have z := sum_sq_zero pts l h.symm
    have zp := z p hp
    have zq := z q hq
    rw [hl] at zp zq
    simp only at zp zq
    have h1 : (a - a') * (p.1 - q.1) = 0 := by linarith
    have h2 : a - a' = 0 := by
      rcases mul_eq_zero.1 h1 with h | h
      · exact h
      · exact absurd (by linarith) hpq
    rw [h2] at zp
    apply hne
    rw [Prod.mk.injEq]
    constructor <;> linarith

theorem mapM_ok_exists {α β : Type} (f : α → Except PyErr β) (l : List α)
    (h : ∀ a ∈ l, ∃ b, f a = .ok b) : ∃ bs, l.mapM f = .ok bs ∧ List.Forall₂ (fun a b => f a = .ok b) l bs := by
  induction l with
  | nil => exact ⟨[], rfl, .nil⟩
  | cons a l ih =>
    obtain ⟨b, hb⟩ := h a (by simp)
    obtain ⟨bs, h1, h2⟩ := ih (fun a ha => h a (by simp [ha]))
    refine ⟨b :: bs, ?_, .cons hb h2⟩
    rw [List.mapM_cons, hb]
    simp only [bind, Except.bind, h1, pure, Except.pure]

/-- The points of the data of Moores et al. -/
def mooresPoints (F : HopFig) : List (ℝ × ℝ) := (F.points.filter (·.moores)).map fun p => (p.lat, p.height)

/-- **C105** what the figure shows for a table with the twelve traps: each point is at 100 times the
efficiency a run uses; the dashed line is the best line through the points of Moores et al.; the other
line joins the points of Cabeus B and Faustini. -/
theorem C105_figure (bhops : PyDict ℝ) (h : ∀ p ∈ hopTraps, ∃ x, bhops.get p.1 = .ok x) :
    ∃ F, hopFigure bhops = .ok F ∧ 
      F.points.map (fun p => (p.trap, p.lat)) = hopTraps.map (fun p => (p.1, (p.2 : ℝ))) ∧
      (∀ p ∈ F.points, hopColdtraps bhops [p.trap] = .ok [p.height / 100]) ∧
      (∀ p ∈ F.points, p.moores = true ↔ p.trap ∈ ["Haworth", "Shoemaker", "Faustini", "de Gerlache",
        "Sverdrup", "Shackleton", "Cabeus"]) ∧
      (∀ p ∈ F.points, ∀ s, p.label = some s → s = if p.moores then "Moores et al. (2016)" else "This work") ∧
      F.cannon = 5.4 ∧
      BestLine (mooresPoints F) F.fit.1 F.fit.2 ∧
      F.curve.length = 10 ∧ (∀ q ∈ F.curve, q.2 = F.fit.1 * q.1 + F.fit.2 ∧ 85.6 ≤ q.1 ∧ q.1 ≤ 89.6) ∧
      (∃ p ∈ F.points, ∃ q ∈ F.points, p.trap = "Cabeus B" ∧ q.trap = "Faustini" ∧
        F.line = [(p.lat, p.height), (q.lat, q.height)]) := by
  have hb : ∃ b : String → ℝ, ∀ p ∈ hopTraps, bhops.get p.1 = .ok (b p.1) := by
    refine ⟨fun n => match bhops.get n with | .ok x => x | .error _ => 0, ?_⟩
    intro p hp
    obtain ⟨x, hx⟩ := h p hp
    simp only [hx]
  obtain ⟨b, hb⟩ := hb
  obtain ⟨pts, hpts⟩ : ∃ t : List HopPoint, t = hopTraps.map fun p =>
    { trap := p.1, lat := (p.2 : ℝ), height := 100 * b p.1, moores := hopMoores.contains p.1,
      label := if p.1 = "Haworth" then some "Moores et al. (2016)"
        else if p.1 = "Cabeus B" then some "This work" else none } := ⟨_, rfl⟩
  have e1 : hopPoints bhops = .ok pts := by
    rw [hpts]
    unfold hopPoints
    apply mapM_eq_map
    intro p hp
    rw [hb p hp]
    rfl
  obtain ⟨used, hused⟩ : ∃ t, t = hopTraps.filter fun p => hopMoores.contains p.1 := ⟨_, rfl⟩
  have e2 : (used.mapM fun p => (bhops.get p.1).map (100 * ·)) = .ok (used.map fun p => 100 * b p.1) := by
    apply mapM_eq_map
    intro p hp
    rw [hused] at hp
    rw [hb p (List.mem_filter.1 hp).1]
    rfl
  have e3 : (["Cabeus B", "Faustini"].mapM fun n => (bhops.get n).map (100 * ·)) =
      .ok (["Cabeus B", "Faustini"].map fun n => 100 * b n) := by
    apply mapM_eq_map
    intro n hn
    have : ∀ n ∈ ["Cabeus B", "Faustini"], ∃ p ∈ hopTraps, p.1 = n := by decide +kernel
    obtain ⟨p, hp, rfl⟩ := this n hn
    rw [hb p hp]
    rfl
  have hm : (pts.filter (·.moores)).map (fun p => (p.lat, p.height)) =
      used.map fun p => ((p.2 : ℝ), 100 * b p.1) := by
    rw [hpts, hused, List.filter_map, List.map_map]
    rfl
  have hz : (used.map fun p => (p.2 : ℝ)).zip (used.map fun p => 100 * b p.1) =
      used.map fun p => ((p.2 : ℝ), 100 * b p.1) := by
    rw [List.zip_map']
  obtain ⟨fit, hfit⟩ : ∃ t, t = polyfit1 (used.map fun p => ((p.2 : ℝ), 100 * b p.1)) := ⟨_, rfl⟩
  have eF : hopFigure bhops = .ok ⟨pts, 5.4, fit,
      ((List.range 10).map fun i : Nat =>
        (89.6 : ℝ) + (i : ℝ) * ((85.6 - 89.6) / (((10 : Int).toNat : ℝ) - 1))).map
          fun x => (x, fit.1 * x + fit.2),
      [82.3, 87.1].zip (["Cabeus B", "Faustini"].map fun n => 100 * b n)⟩ := by
    unfold hopFigure
    rw [e1]
    simp only [bind, Except.bind]
    rw [← hused, e2]
    simp only [hz]
    rw [e3, hfit]
    unfold linspace
    rw [if_neg (by norm_num), if_neg (by norm_num)]
    rfl
  refine ⟨_, eF, ?_⟩
  simp only
  refine ⟨by rw [hpts, List.map_map]; rfl, ?_, ?_, ?_, trivial, ?_, by simp, ?_, ?_⟩
  · intro p hp
    rw [hpts] at hp
    obtain ⟨q, hq, rfl⟩ := List.mem_map.1 hp
    unfold hopColdtraps
    rw [List.mapM_cons, hb q hq]
    simp [bind, Except.bind, pure, Except.pure]
  · intro p hp
    rw [hpts] at hp
    obtain ⟨q, hq, rfl⟩ := List.mem_map.1 hp
    simp only [List.contains_iff_mem]
    rfl
  · intro p hp s hs
    rw [hpts] at hp
    obtain ⟨q, hq, rfl⟩ := List.mem_map.1 hp
    simp only [] at hs ⊢
    split at hs
    · rename_i h
      rw [h]
      injection hs with hs
      rw [← hs]; rfl
    · split at hs
      · rename_i h
        rw [h]
        injection hs with hs
        rw [← hs]; rfl
      · cases hs
  · unfold mooresPoints
    simp only
    rw [hm, hfit]
    have u1 : ("Haworth", (87.5 : ℚ)) ∈ used := by rw [hused]; decide +kernel
    have u2 : ("Shoemaker", (88 : ℚ)) ∈ used := by rw [hused]; decide +kernel
    exact polyfit1_best _ _ _ (List.mem_map.2 ⟨_, u1, rfl⟩) (List.mem_map.2 ⟨_, u2, rfl⟩)
      (by norm_num)
  · intro q hq
    rw [List.map_map] at hq
    obtain ⟨i, hi, rfl⟩ := List.mem_map.1 hq
    have hi : i < 10 := List.mem_range.1 hi
    have h1 : (i : ℝ) ≤ 9 := by exact_mod_cast (by omega : i ≤ 9)
    have h0 : (0 : ℝ) ≤ i := by positivity
    have ht : (((10 : Int).toNat : Nat) : ℝ) = 10 := by
      rw [show (10 : Int).toNat = 10 from rfl]; norm_num
    refine ⟨rfl, ?_, ?_⟩ <;> simp only [Function.comp] <;> rw [ht] <;> norm_num <;> linarith
  · have u1 : ("Cabeus B", (82.3 : ℚ)) ∈ hopTraps := by decide +kernel
    have u2 : ("Faustini", (87.1 : ℚ)) ∈ hopTraps := by decide +kernel
    rw [hpts]
    refine ⟨_, List.mem_map.2 ⟨_, u1, rfl⟩, _, List.mem_map.2 ⟨_, u2, rfl⟩, rfl, rfl, ?_⟩
    norm_num

theorem get_error {α : Type} (d : PyDict α) (k : String) (e : PyErr) (h : d.get k = .error e) :
    e = .keyError := by
  induction d with
  | nil => injection h with h; exact h.symm
  | cons p d ih =>
    obtain ⟨k', v⟩ := p
    unfold PyDict.get at h
    split at h
    · cases h
    · exact ih h

/-- **C105** a trap missing from the table raises `KeyError`. -/
theorem C105_missing (bhops : PyDict ℝ) (p : String × ℚ) (hp : p ∈ hopTraps)
    (h : ∀ x, bhops.get p.1 ≠ .ok x) : hopFigure bhops = .error .keyError := by
  have key : ∀ l : List (String × ℚ), (∃ p ∈ l, ∀ x, bhops.get p.1 ≠ .ok x) →
      ∀ f : String × ℚ → ℝ → HopPoint,
      (l.mapM fun p => do let b ← bhops.get p.1; .ok (f p b)) = Except.error PyErr.keyError := by
    intro l
    induction l with
    | nil => rintro ⟨p, hp, -⟩; cases hp
    | cons q l ih =>
      rintro ⟨p, hp, h⟩ f
      rw [List.mapM_cons]
      cases hq : bhops.get q.1 with
      | error e =>
        rw [get_error _ _ _ hq]
        rfl
      | ok x =>
        have : ∃ p ∈ l, ∀ x, bhops.get p.1 ≠ .ok x := by
          rcases List.mem_cons.1 hp with rfl | hp
          · exact absurd hq (h x)
          · exact ⟨p, hp, h⟩
        simp only [bind, Except.bind]
        have := ih this f
        simp only [bind, Except.bind] at this
        rw [this]
  have : hopPoints bhops = .error .keyError := key hopTraps ⟨p, hp, h⟩ _
  unfold hopFigure
  rw [this]
  rfl

/-- **C105** the twelve traps are those of the default configuration. -/
theorem C105_traps (seed : Int) : (hopTraps.map (·.1)).Perm (RunCfg.default seed).coldtrap_names := by
  change (hopTraps.map (·.1)).Perm ["Haworth", "Shoemaker", "Faustini", "Shackleton", "Slater", "Amundsen",
    "Cabeus", "Sverdrup", "de Gerlache", "Idel'son L", "Wiechert J", "Cabeus B"]
  decide +kernel

/-- **C105** each point is at the latitude of its crater or of the shadowed region in it, to 0.05
degrees. -/
theorem C105_lats : ∀ p ∈ hopTraps, ∃ r ∈ craterFile, r.cname = p.1 ∧
    (|p.2 + r.lat| ≤ 0.05 ∨ ∃ q, r.psr = some q ∧ |p.2 + q.1| ≤ 0.05) := by
  have : ∀ p ∈ hopTraps, ∃ r ∈ craterFile, r.cname = p.1 ∧
    (|p.2 + r.lat| ≤ 0.05 ∨ ∃ q ∈ r.psr.toList, |p.2 + q.1| ≤ 0.05) := by decide +kernel
  intro p hp
  obtain ⟨r, h1, h2, h3⟩ := this p hp
  refine ⟨r, h1, h2, ?_⟩
  rcases h3 with h | ⟨q, hq, h⟩
  · exact .inl h
  · exact .inr ⟨q, by simpa using hq, h⟩

/-- **C105** the full claim would be that each point is at the latitude of its crater: de Gerlache, at
88.3 degrees, is listed at 88.5. -/
theorem C105_lats_refuted : ¬ ∀ p ∈ hopTraps, ∃ r ∈ craterFile, r.cname = p.1 ∧ |p.2 + r.lat| ≤ 0.1 := by
  decide +kernel

/-- **C105** the points of the shipped table are all inside the axes, 82 to 90 degrees and 0 to 7 %. -/
theorem C105_visible : ∃ F, hopFigure (hopFile.map fun p => (p.1, (p.2 : ℝ))) = .ok F ∧
    F.points.length = 12 ∧ ∀ p ∈ F.points, 82 < p.lat ∧ p.lat < 90 ∧ 0 < p.height ∧ p.height < 7 := by
  have cast : ∀ (l : List (String × ℚ)) n x, PyDict.get l n = .ok x →
      PyDict.get (l.map fun p => (p.1, (p.2 : ℝ))) n = .ok (x : ℝ) := by
    intro l
    induction l with
    | nil => intro n x h; cases h
    | cons q l ih =>
      obtain ⟨k, v⟩ := q
      intro n x h
      rw [List.map_cons]
      unfold PyDict.get at h ⊢
      split at h
      · rename_i e; injection h with h; simp [e, h]
      · rename_i e; simp only [e, if_false]; exact ih n x h
  have all : ∀ p ∈ hopTraps, ∃ x, PyDict.get hopFile p.1 = .ok x ∧ 0 < x ∧ x < 0.07 := by
    have : ∀ p ∈ hopTraps, (match PyDict.get hopFile p.1 with
      | .ok x => decide (0 < x ∧ x < 0.07) | .error _ => false) = true := by decide +kernel
    intro p hp
    have := this p hp
    split at this
    · rename_i x hx; exact ⟨x, hx, of_decide_eq_true this⟩
    · cases this
  obtain ⟨F, h1, h2, h3, -⟩ := C105_figure (hopFile.map fun p => (p.1, (p.2 : ℝ))) (fun p hp => by
    obtain ⟨x, hx, -⟩ := all p hp
    exact ⟨_, cast _ _ _ hx⟩)
  refine ⟨F, h1, ?_, ?_⟩
  · have := congrArg List.length h2
    rw [List.length_map, List.length_map] at this
    exact this
  · intro p hp
    have hp1 : (p.trap, p.lat) ∈ hopTraps.map (fun p => (p.1, (p.2 : ℝ))) := by
      rw [← h2]; exact List.mem_map.2 ⟨p, hp, rfl⟩
    obtain ⟨q, hq, e⟩ := List.mem_map.1 hp1
    rw [Prod.mk.injEq] at e
    obtain ⟨x, hx, x0, x1⟩ := all q hq
    have hg := h3 p hp
    unfold hopColdtraps at hg
    rw [← e.1, List.mapM_cons, cast _ _ _ hx] at hg
    simp only [bind, Except.bind, pure, Except.pure, List.mapM_nil] at hg
    injection hg with hg
    injection hg with hg
    have y0 : (0 : ℝ) < x := by exact_mod_cast x0
    have y1 : (x : ℝ) < 0.07 := by
      have := (Rat.cast_lt (K := ℝ)).2 x1
      norm_num at this ⊢
      exact this
    have lat : ∀ q ∈ hopTraps, 82 < q.2 ∧ q.2 < 90 := by decide +kernel
    obtain ⟨l0, l1⟩ := lat q hq
    rw [← e.2]
    refine ⟨by exact_mod_cast l0, by exact_mod_cast l1, by linarith, ?_⟩
    norm_num at y1
    linarith

end MoonPIES
