import Verif.Props.Geo
import Mathlib.Analysis.Real.Pi.Bounds
import Verif.Model.Ejecta

/-!
# C37: which traps receive ejecta
-/

namespace MoonPIES

open Real InnerProductGeometry

/-- Spec: the configured ejecta threshold of a crater, in radii. -/
def thresholdOf (cfg : EjCfg) (c : Crater) : ℝ :=
  if c.isbasin then cfg.basin_ej_threshold else cfg.ej_threshold

/-- Spec: the distance along the surface from a crater to a place, on a sphere of the
default lunar radius. -/
noncomputable def surfaceDist (c : Crater) (lat lon : ℝ) : ℝ :=
  1737400 * angle (direction c.lat c.lon) (direction lat lon)

theorem gcDist_surface (c : Crater) (lat lon : ℝ) :
    gcDist c.lon c.lat lon lat 1737.4e3 = some (surfaceDist c lat lon) := by
  rw [C34_gc_dist_eq_angle]
  unfold surfaceDist
  norm_num

/-- Value of one element when the trap names a unique crater. -/
theorem coldtrapDist_eq (cfg : EjCfg) (df : List Crater) (row t : Crater) (trap : String)
    (hu : df.filter (fun c => c.cname = trap) = [t]) (hr : 0 < row.rad) (d : ℝ) :
    coldtrapDist cfg df row trap = .ok (some d) ↔
      row.cname ≠ trap ∧ (∃ p, t.psr = some p ∧ d = surfaceDist row p.1 p.2) ∧ row.rad < d ∧
      (thresholdOf cfg row < 0 ∨ d < thresholdOf cfg row * row.rad) := by
  unfold coldtrapDist
  simp only []
  by_cases hn : row.cname = trap
  · simp [hn]
  simp only [hn, if_false, hu]
  cases hp : t.psr with
  | none => simp
  | some p =>
  simp only [gcDist_surface]
  change Except.ok _ = Except.ok _ ↔ _
  rw [Except.ok.injEq]
  have hx : inBlanket row.rad (if row.isbasin then cfg.basin_ej_threshold else cfg.ej_threshold)
        (surfaceDist row p.1 p.2) ↔
      row.rad < surfaceDist row p.1 p.2 ∧ (thresholdOf cfg row < 0 ∨
        surfaceDist row p.1 p.2 < thresholdOf cfg row * row.rad) := by
    unfold inBlanket thresholdOf
    split_ifs with h1 h2 h2
    · simp [h2, hr]
    · simp [h2]
    · simp [h2, hr]
    · simp [h2]
  by_cases hb : inBlanket row.rad
      (if row.isbasin then cfg.basin_ej_threshold else cfg.ej_threshold)
      (surfaceDist row p.1 p.2)
  · have hb' := hx.1 hb
    rw [if_pos hb, if_neg (not_le.2 (hr.trans hb'.1))]
    rw [Option.some.injEq]
    constructor
    · rintro rfl; exact ⟨hn, ⟨p, rfl, rfl⟩, hb'⟩
    · rintro ⟨-, ⟨q, hq, rfl⟩, -⟩
      rw [Option.some.injEq] at hq; subst hq; rfl
  · rw [if_neg hb, if_pos (le_refl _)]
    constructor
    · intro h; exact absurd h (by simp)
    · rintro ⟨-, ⟨q, hq, rfl⟩, h⟩
      rw [Option.some.injEq] at hq; subst hq
      exact absurd (hx.2 h) hb

/-- **C37** `get_coldtrap_dists` succeeds when the names of the traps are unique in the
table, has one entry per crater and trap, and an entry is a distance exactly when the
crater is not the trap itself, the trap has coordinates and the distance is strictly between the crater radius and
the threshold (no outer limit when negative); otherwise it is missing. -/
theorem C37_coldtrap_dists (cfg : EjCfg) (df : List Crater) (traps : List String)
    (hrad : ∀ c ∈ df, 0 < c.rad)
    (huniq : ∀ trap ∈ traps, ∃ t, df.filter (fun c => c.cname = trap) = [t]) :
    ∃ m, coldtrapDists cfg df traps = .ok m ∧ m.length = df.length ∧
      ∀ (i : Nat) row (j : Nat) trap, df[i]? = some row → traps[j]? = some trap →
        ∃ r v, m[i]? = some r ∧ r.length = traps.length ∧ r[j]? = some v ∧
          ∀ t ∈ df, t.cname = trap → ∀ d, v = some d ↔
            (row.cname ≠ trap ∧ (∃ p, t.psr = some p ∧ d = surfaceDist row p.1 p.2) ∧ row.rad < d ∧
              (thresholdOf cfg row < 0 ∨ d < thresholdOf cfg row * row.rad)) := by
  have hok : ∀ row trap, trap ∈ traps → ∃ v, coldtrapDist cfg df row trap = .ok v := by
    intro row trap ht
    obtain ⟨t, hu⟩ := huniq trap ht
    unfold coldtrapDist
    simp only [hu]
    cases t.psr with
    | none => split_ifs <;> exact ⟨_, rfl⟩
    | some p =>
      simp only [gcDist_surface]
      split_ifs <;> exact ⟨_, rfl⟩
  have hmap : ∀ {α β : Type} (f : α → Except PyErr β) (l : List α), (∀ a ∈ l, ∃ b, f a = .ok b) →
      ∃ m, l.mapM f = .ok m ∧ m.length = l.length ∧
        ∀ (i : Nat) a, l[i]? = some a → ∃ b, m[i]? = some b ∧ f a = .ok b := by
    intro α β f l
    induction l with
    | nil => intro _; exact ⟨[], rfl, rfl, by simp⟩
    | cons a l ih =>
      intro h
      obtain ⟨b, hb⟩ := h a (by simp)
      obtain ⟨m, hm, hl, hi⟩ := ih (fun x hx => h x (by simp [hx]))
      refine ⟨b :: m, ?_, by simp [hl], ?_⟩
      · rw [List.mapM_cons, hb, hm]; rfl
      · intro i x hx
        cases i with
        | zero =>
          simp only [List.getElem?_cons_zero, Option.some.injEq] at hx
          exact ⟨b, by simp, hx ▸ hb⟩
        | succ i =>
          simp only [List.getElem?_cons_succ] at hx ⊢
          exact hi i x hx
  have hrow : ∀ row, ∃ r, traps.mapM (fun trap => coldtrapDist cfg df row trap) = .ok r ∧
      r.length = traps.length ∧ ∀ (j : Nat) trap, traps[j]? = some trap →
        ∃ v, r[j]? = some v ∧ coldtrapDist cfg df row trap = .ok v :=
    fun row => hmap _ traps (fun trap ht => hok row trap ht)
  obtain ⟨m, hm, hl, hi⟩ := hmap (fun row => traps.mapM (fun trap => coldtrapDist cfg df row trap))
    df (fun row _ => by obtain ⟨r, hr, _⟩ := hrow row; exact ⟨r, hr⟩)
  refine ⟨m, hm, hl, ?_⟩
  intro i row j trap h1 h2
  obtain ⟨r, hr, hre⟩ := hi i row h1
  obtain ⟨r', hr', hrl, hv⟩ := hrow row
  rw [hre, Except.ok.injEq] at hr'
  subst hr'
  obtain ⟨v, hv1, hv2⟩ := hv j trap h2
  refine ⟨r, v, hr, hrl, hv1, ?_⟩
  intro t ht htn d
  obtain ⟨t', hu⟩ := huniq trap (List.mem_of_getElem? h2)
  have ht' : t ∈ df.filter (fun c => c.cname = trap) := by simp [ht, htn]
  rw [hu, List.mem_singleton] at ht'
  subst ht'
  have := coldtrapDist_eq cfg df row t trap hu (hrad row (List.mem_of_getElem? h1)) d
  rw [hv2, Except.ok.injEq] at this
  exact this

/-- **C37** a trap name shared by two craters of the table stops the run. -/
theorem C37_duplicate_name_raises (cfg : EjCfg) (df : List Crater) (row : Crater) (trap : String)
    (hn : row.cname ≠ trap) (h2 : 2 ≤ (df.filter (fun c => c.cname = trap)).length) :
    coldtrapDist cfg df row trap = .error .valueError := by
  unfold coldtrapDist
  simp only [hn, if_false]
  match h : df.filter (fun c => c.cname = trap) with
  | [] => rw [h] at h2; simp at h2
  | [t] => rw [h] at h2; simp at h2
  | a :: b :: l => simp only [h]

/-- **C37** a trap name absent from the table silently receives nothing. -/
theorem C37_unknown_trap_gets_nothing (cfg : EjCfg) (df : List Crater) (row : Crater)
    (trap : String) (h : ∀ c ∈ df, c.cname ≠ trap) :
    coldtrapDist cfg df row trap = .ok none := by
  have hf : df.filter (fun c => c.cname = trap) = [] := by
    rw [List.filter_eq_nil_iff]; intro c hc; simpa using h c hc
  unfold coldtrapDist
  simp only [hf]
  split_ifs <;> rfl

/-- **C37** a trap without coordinates, such as a basin, receives nothing. -/
theorem C37_trap_without_centroid (cfg : EjCfg) (df : List Crater) (row t : Crater)
    (trap : String) (hu : df.filter (fun c => c.cname = trap) = [t]) (ht : t.psr = none) :
    coldtrapDist cfg df row trap = .ok none := by
  unfold coldtrapDist
  simp only [hu, ht]
  split_ifs <;> rfl

/-- **C37 (partial)** what the grid does.  Full claim: the same rule as the cold traps
(refuted below).  A grid point on the disk gets a distance exactly when it lies in the
closed annulus from the crater radius to threshold times radius. -/
theorem C37_grid_rule_partial (cfg : EjCfg) (row : Crater) (lat lon d : ℝ) :
    gridDist cfg row (some lat) lon = some d ↔
      d = surfaceDist row lat lon ∧ row.rad ≤ d ∧ d ≤ thresholdOf cfg row * row.rad := by
  unfold gridDist
  simp only [gcDist_surface]
  change (if surfaceDist row lat lon < row.rad then none
    else if thresholdOf cfg row * row.rad < surfaceDist row lat lon then none
    else some (surfaceDist row lat lon)) = some d ↔ _
  split_ifs with h1 h2
  · constructor
    · intro h; exact absurd h (by simp)
    · rintro ⟨rfl, h, -⟩; linarith
  · constructor
    · intro h; exact absurd h (by simp)
    · rintro ⟨rfl, -, h⟩; linarith
  · rw [Option.some.injEq]
    constructor
    · rintro rfl; exact ⟨rfl, not_lt.1 h1, not_lt.1 h2⟩
    · rintro ⟨rfl, -, -⟩; rfl

/-- **C37 (partial)** strictly inside the blanket, with a non-negative threshold, the two
rules agree. -/
theorem C37_grid_agrees_inside_partial (cfg : EjCfg) (df : List Crater) (row t : Crater)
    (trap : String) (hu : df.filter (fun c => c.cname = trap) = [t]) (hr : 0 < row.rad)
    (hn : row.cname ≠ trap) (ht : 0 ≤ thresholdOf cfg row)
    (lat lon : ℝ) (hp : t.psr = some (lat, lon)) (hb1 : surfaceDist row lat lon ≠ row.rad)
    (hb2 : surfaceDist row lat lon ≠ thresholdOf cfg row * row.rad) (d : ℝ) :
    coldtrapDist cfg df row trap = .ok (some d) ↔
      gridDist cfg row (some lat) lon = some d := by
  rw [coldtrapDist_eq cfg df row t trap hu hr, C37_grid_rule_partial, hp]
  constructor
  · rintro ⟨-, ⟨q, hq, rfl⟩, h1, h2⟩
    rw [Option.some.injEq] at hq; subst hq
    exact ⟨rfl, h1.le, by rcases h2 with h2 | h2 <;> linarith⟩
  · rintro ⟨rfl, h1, h2⟩
    exact ⟨hn, ⟨(lat, lon), rfl, rfl⟩, lt_of_le_of_ne h1 (Ne.symm hb1),
      Or.inr (lt_of_le_of_ne h2 hb2)⟩

/-- **C37** a negative threshold ("no limit") blanks the whole grid instead. -/
theorem C37_grid_negative_threshold (cfg : EjCfg) (row : Crater) (lat : Option ℝ) (lon : ℝ)
    (hr : 0 < row.rad) (ht : thresholdOf cfg row < 0) : gridDist cfg row lat lon = none := by
  cases lat with
  | none => rfl
  | some lat =>
    rw [Option.eq_none_iff_forall_ne_some]
    intro d h
    obtain ⟨-, h1, h2⟩ := (C37_grid_rule_partial cfg row lat lon d).1 h
    nlinarith

/-- A crater at the south pole, and a trap on the equator. -/
noncomputable def poleCrater : Crater :=
  { cname := "A", lon := 0, lat := -90, rad := 1000, isbasin := false, psr := some (-90, 0) }
noncomputable def equatorTrap : Crater :=
  { cname := "B", lon := 0, lat := 0, rad := 10, isbasin := false, psr := some (0, 0) }

theorem pole_equator : surfaceDist poleCrater 0 0 = 1737400 * (π / 2) := by
  unfold surfaceDist poleCrater
  rw [angle, direction_inner, direction_norm, direction_norm]
  have h : haversine 0 (-90) 0 0 = 1 / 2 := by
    unfold haversine deg2rad
    have e2 : (-90 : ℝ) * (π / 180) = -(π / 2) := by ring
    have e1 : (0 * (π / 180) - -(π / 2)) / 2 = π / 4 := by ring
    simp only [e2]
    rw [e1, sin_pi_div_four, div_pow, sq_sqrt (by norm_num)]
    simp
    norm_num
  rw [h]
  norm_num

/-- **C37 refuted** for the grid: with "no threshold" the trap on the equator receives
ejecta from the polar crater but the same point of the grid does not. -/
theorem C37_grid_same_rule_refuted :
    ¬ ∀ (cfg : EjCfg) (df : List Crater) (row t : Crater) (trap : String) (d lat lon : ℝ),
      df.filter (fun c => c.cname = trap) = [t] → 0 < row.rad → row.cname ≠ trap →
      t.psr = some (lat, lon) →
      (coldtrapDist cfg df row trap = .ok (some d) ↔
        gridDist cfg row (some lat) lon = some d) := by
  intro h
  have hu : [poleCrater, equatorTrap].filter (fun c => c.cname = "B") = [equatorTrap] := by
    simp [poleCrater, equatorTrap]
  have hr : 0 < poleCrater.rad := by norm_num [poleCrater]
  have hn : poleCrater.cname ≠ "B" := by simp [poleCrater]
  have ht : thresholdOf { EjCfg.default with ej_threshold := -1 } poleCrater < 0 := by
    norm_num [thresholdOf, poleCrater]
  have := (h { EjCfg.default with ej_threshold := -1 } [poleCrater, equatorTrap] poleCrater
    equatorTrap "B" _ 0 0 hu hr hn rfl).1 ((coldtrapDist_eq _ _ _ _ _ hu hr _).2
      ⟨hn, ⟨(0, 0), rfl, rfl⟩, by
        rw [pole_equator]
        have : (3 : ℝ) < π := pi_gt_three
        norm_num [poleCrater]; linarith, Or.inl ht⟩)
  rw [C37_grid_negative_threshold _ _ _ _ hr ht] at this
  exact absurd this (by simp)

example : coldtrapDist { EjCfg.default with ej_threshold := -1 } [poleCrater, equatorTrap]
    poleCrater "B" = .ok (some (1737400 * (π / 2))) := by
  have hu : [poleCrater, equatorTrap].filter (fun c => c.cname = "B") = [equatorTrap] := by
    simp [poleCrater, equatorTrap]
  refine (coldtrapDist_eq _ _ _ _ _ hu (by norm_num [poleCrater]) _).2
    ⟨by simp [poleCrater], ⟨(0, 0), rfl, pole_equator.symm⟩, ?_, Or.inl (by norm_num [thresholdOf, poleCrater])⟩
  have : (3 : ℝ) < π := pi_gt_three
  norm_num [poleCrater]; linarith

end MoonPIES
