import Verif.Props.Strat

/-!
# C77: labels of the stratigraphy table
-/

namespace MoonPIES

open Spec

variable {K : Type} [Field K] [LinearOrder K]

/-- Spec: `l` is the label of a timestep: the source of ejecta thicker than the minimum, a
placeholder if that source is not known, and ice otherwise. -/
def Spec.StepLabel (thickMin : K) (s : Step K) (l : String) : Prop :=
  (thickMin < s.ejecta ∧ s.src ≠ "" ∧ l = s.src) ∨
  (thickMin < s.ejecta ∧ s.src = "" ∧ l = "Minor source(s)") ∨
  (s.ejecta ≤ thickMin ∧ thickMin < s.ice ∧ l = "Ice")

/-- Spec: a row holding one timestep under its label. -/
def Spec.RowOf (thickMin : K) (s : Step K) (r : Row K) : Prop :=
  r.time = s.time ∧ r.ice = s.ice ∧ r.ejecta = s.ejecta ∧ StepLabel thickMin s r.label

omit [Field K] in
theorem rowLabel_spec (thickMin : K) (s : Step K) (l : String) :
    rowLabel thickMin s = some l ↔ StepLabel thickMin s l := by
  unfold rowLabel StepLabel
  rcases lt_or_ge thickMin s.ice with h1 | h1 <;> rcases lt_or_ge thickMin s.ejecta with h2 | h2 <;>
    by_cases h3 : s.src = "" <;>
    simp [h1, h2, h3, not_le.2, not_lt.2] <;> exact eq_comm

variable [FloorRing K]

theorem drop_rows (thickMin : K) (steps : List (Step K)) :
    List.Forall₂ (RowOf thickMin)
      (steps.filter (fun s => decide (thickMin < s.ice ∨ thickMin < s.ejecta)))
      (dropUnlabelled (labelRows thickMin steps)) := by
  induction steps with
  | nil => exact List.Forall₂.nil
  | cons s steps ih =>
    have hs := rowLabel_some thickMin s
    by_cases h : thickMin < s.ice ∨ thickMin < s.ejecta
    · obtain ⟨l, hl⟩ := Option.isSome_iff_exists.1 (hs.2 h)
      rw [List.filter_cons_of_pos (by simpa using h)]
      have e : dropUnlabelled (labelRows thickMin (s :: steps)) =
          ⟨s.time, s.ice, s.ejecta, l⟩ :: dropUnlabelled (labelRows thickMin steps) := by
        simp [labelRows, dropUnlabelled, hl]
      rw [e]
      exact List.Forall₂.cons ⟨rfl, rfl, rfl, (rowLabel_spec _ _ _).1 hl⟩ ih
    · have hl : rowLabel thickMin s = none := by
        rw [← Option.not_isSome_iff_eq_none]; exact fun h' => h (hs.1 h')
      rw [List.filter_cons_of_neg (by simpa using h)]
      have e : dropUnlabelled (labelRows thickMin (s :: steps)) =
          dropUnlabelled (labelRows thickMin steps) := by
        simp [labelRows, dropUnlabelled, hl]
      rw [e]
      exact ih

open Classical in
/-- **C77** the table is the merge of the counted timesteps under their labels, below a formation
row if asked for: every column of the table except depth and percentage is determined by this
(C20_merge_unique). -/
theorem C77_table (thickMin tol age : K) (saa : Bool) (steps : List (Step K))
    (out : List (StratRow K)) (h : makeStratCol thickMin tol saa age steps = .ok out) :
    ∃ top rows, IsMerge (top ++ rows) (out.map StratRow.row) ∧
      List.Forall₂ (RowOf thickMin)
        (steps.filter (fun s => decide (Counted thickMin tol saa age s))) rows ∧
      ((saa = false ∧ top = []) ∨ (saa = true ∧ ∃ s rest,
        steps.filter (fun s => decide (s.time < age + |age| * tol)) = s :: rest ∧
        top = [⟨s.time, 0, 0, "Formation age"⟩])) := by
  obtain ⟨pre, ho, hpre⟩ := makeStratCol_ok h
  refine ⟨pre, dropUnlabelled (labelRows thickMin (steps.filter
    (fun s => decide (saa = true → s.time < age + |age| * tol)))), ?_, ?_, hpre⟩
  rotate_left
  · have := drop_rows thickMin
      (steps.filter (fun s => decide (saa = true → s.time < age + |age| * tol)))
    rw [List.filter_filter] at this
    have e : steps.filter (fun s => decide (Counted thickMin tol saa age s)) =
        steps.filter (fun s => decide (thickMin < s.ice ∨ thickMin < s.ejecta) &&
          decide (saa = true → s.time < age + |age| * tol)) := by
      apply List.filter_congr
      intro s _
      rw [Bool.eq_iff_iff]
      rw [decide_eq_true_eq, Bool.and_eq_true, decide_eq_true_eq, decide_eq_true_eq]
      exact Iff.rfl
    rw [e]
    exact this
  · rw [ho, addDepthPct_rows]
    exact merge_isMerge _

/-- **C77** what a label says: a layer called by any other name than the three fixed ones holds a
timestep whose ejecta, thicker than the minimum, has that source; a layer of ice holds only
timesteps whose ejecta is no thicker than the minimum; no label is empty. -/
theorem C77_labels (thickMin tol age : K) (saa : Bool) (steps : List (Step K))
    (hsrc : ∀ s ∈ steps, s.src ≠ "Formation age" ∧ s.src ≠ "Ice" ∧ s.src ≠ "Minor source(s)")
    (out : List (StratRow K)) (h : makeStratCol thickMin tol saa age steps = .ok out) :
    ∀ r ∈ out, r.label ≠ "" ∧
      (r.label ≠ "Formation age" → r.label ≠ "Ice" → r.label ≠ "Minor source(s)" →
        ∃ s ∈ steps, s.src = r.label ∧ s.time = r.time ∧ thickMin < s.ejecta) ∧
      (r.label = "Ice" → ∃ s ∈ steps, s.time = r.time ∧ s.ejecta ≤ thickMin ∧ thickMin < s.ice) ∧
      (r.label = "Minor source(s)" → ∃ s ∈ steps, s.time = r.time ∧ s.src = "" ∧
        thickMin < s.ejecta) := by
  obtain ⟨top, rows, ⟨bs, hb, hs⟩, hrows, htop⟩ := C77_table thickMin tol age saa steps out h
  intro r hr
  have hr' : r.row ∈ out.map StratRow.row := List.mem_map_of_mem hr
  obtain ⟨i, hi⟩ := List.mem_iff_getElem?.1 hr'
  obtain ⟨b, hbm, -, -, l, hl, e1, e2⟩ : ∃ b ∈ bs, Summary b r.row := by
    have hil := (List.getElem?_eq_some_iff.1 hi).1
    have hl' : i < bs.length := by rw [hs.length_eq]; exact hil
    have := (List.forall₂_iff_get.1 hs).2 i hl' hil
    have e : (out.map StratRow.row).get ⟨i, hil⟩ = r.row := (List.getElem?_eq_some_iff.1 hi).2
    rw [e] at this
    exact ⟨_, List.get_mem _ _, this⟩
  have hlm : l ∈ top ++ rows := by
    rw [← hb.flatten, List.mem_flatten]
    exact ⟨b, hbm, List.mem_of_getLast? hl⟩
  change r.label = l.label at e1
  change r.time = l.time at e2
  rw [e1, e2]
  rcases List.mem_append.1 hlm with hm | hm
  · rcases htop with ⟨-, rfl⟩ | ⟨-, s, rest, -, rfl⟩
    · simp at hm
    · rw [List.mem_singleton] at hm
      rw [hm]
      refine ⟨by simp, fun h => absurd rfl h, fun h => absurd h (by simp),
        fun h => absurd h (by simp)⟩
  · obtain ⟨j, hj⟩ := List.mem_iff_getElem?.1 hm
    have hjl := (List.getElem?_eq_some_iff.1 hj).1
    obtain ⟨s, hsm, hrow⟩ : ∃ s ∈ steps, RowOf thickMin s l := by
      have hj' := hrows.length_eq ▸ hjl
      have := (List.forall₂_iff_get.1 hrows).2 j hj' hjl
      have e : rows.get ⟨j, hjl⟩ = l := (List.getElem?_eq_some_iff.1 hj).2
      rw [e] at this
      exact ⟨_, (List.mem_filter.1 (List.get_mem _ ⟨j, hj'⟩)).1, this⟩
    obtain ⟨t1, -, -, hlab⟩ := hrow
    obtain ⟨n1, n2, n3⟩ := hsrc s hsm
    rw [t1]
    rcases hlab with ⟨a, b, c⟩ | ⟨a, b, c⟩ | ⟨a, b, c⟩
    · rw [c]
      exact ⟨b, fun _ _ _ => ⟨s, hsm, rfl, rfl, a⟩, fun h => absurd h n2, fun h => absurd h n3⟩
    · rw [c]
      exact ⟨by decide, fun _ _ h => absurd rfl h, fun h => absurd h (by decide),
        fun _ => ⟨s, hsm, rfl, b, a⟩⟩
    · rw [c]
      exact ⟨by decide, fun _ h => absurd rfl h, fun _ => ⟨s, hsm, rfl, a, b⟩,
        fun h => absurd h (by decide)⟩

/-- C77 on the column of C21-C24: ice, a crater, an unknown source. -/
example : (makeStratCol (1 / 1000 : ℚ) (1 / 1000000) true 4 exSteps).map (·.map (·.label)) =
      .ok ["Formation age", "Ice", "Cabeus", "Minor source(s)"] ∧
    ∀ s ∈ exSteps, s.src ≠ "Formation age" ∧ s.src ≠ "Ice" ∧ s.src ≠ "Minor source(s)" := by
  constructor <;> decide +kernel

end MoonPIES
