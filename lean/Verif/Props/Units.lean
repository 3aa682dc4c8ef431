import Verif.Lemmas.Units
import Mathlib.Data.Rat.Floor
import Mathlib.Tactic.NormNum

/-!
# C127: the unit of length is immaterial
-/

namespace MoonPIES

open Spec

variable {K : Type} [Field K] [LinearOrder K] [IsStrictOrderedRing K]

/-! ## Specification -/

/-- The same column with all thicknesses multiplied by `l`. -/
def Spec.inUnits (l : K) (c : StratCol K) : StratCol K :=
  { ice := c.ice.map (l * ·), ej := c.ej.map (l * ·), src := c.src }

/-- The same columns, trap by trap. -/
def Spec.colsInUnits (l : K) (cols : PyDict (StratCol K)) : PyDict (StratCol K) :=
  cols.map fun p => (p.1, inUnits l p.2)

/-- The same timestep with thicknesses multiplied by `l` and time by `m`. -/
def Spec.stepInUnits (l m : K) (s : Step K) : Step K :=
  { time := m * s.time, ice := l * s.ice, ejecta := l * s.ejecta, src := s.src }

/-- The same layer of the table: the label and the percentage of ice are pure numbers. -/
def Spec.layerInUnits (l m : K) (r : StratRow K) : StratRow K :=
  { ice := l * r.ice, ejecta := l * r.ejecta, label := r.label, time := m * r.time,
    depth := l * r.depth, icepct := r.icepct }

/-! ## The time loop -/

theorem colsInUnits_get (l : K) (n : String) : ∀ cols : PyDict (StratCol K),
    (colsInUnits l cols).get n = (cols.get n).map (inUnits l)
  | [] => rfl
  | (k, v) :: rest => by
    change PyDict.get ((k, inUnits l v) :: colsInUnits l rest) n = _
    rw [PyDict.get, PyDict.get]
    by_cases h : k = n
    · rw [if_pos h, if_pos h]; rfl
    · rw [if_neg h, if_neg h]; exact colsInUnits_get l n rest

theorem colsInUnits_set (l : K) (n : String) (c : StratCol K) : ∀ cols : PyDict (StratCol K),
    (colsInUnits l cols).set n (inUnits l c) = colsInUnits l (cols.set n c)
  | [] => rfl
  | (k, v) :: rest => by
    change PyDict.set ((k, inUnits l v) :: colsInUnits l rest) n _ = _
    rw [PyDict.set, PyDict.set]
    by_cases h : k = n
    · rw [if_pos h, if_pos h]; rfl
    · rw [if_neg h, if_neg h, colsInUnits_set l n c rest]; rfl

theorem pyGet2_scale (l : K) (m : List (List K)) (t i : Nat) :
    pyGet2 (m.map (List.map (l * ·))) t i = (pyGet2 m t i).map (l * ·) := by
  unfold pyGet2 pyGet
  rw [List.getElem?_map]
  cases m[t]? with
  | none => rfl
  | some row =>
    simp only [Option.map_some, bind, Except.bind]
    rw [List.getElem?_map]
    cases row[i]? <;> rfl

theorem updateTraps_scale {fl : K → K} {l : K} (hl : 0 < l) (hfl : ∀ x, fl (l * x) = l * fl x)
    (shield : K) (costello : Bool) (bd bf : List (List K)) (t : Nat) (ov : K) :
    ∀ (names : List String) (i : Nat) (cols : PyDict (StratCol K)),
    updateTraps fl (l * shield) costello (bd.map (List.map (l * ·))) bf t (l * ov) i names
        (colsInUnits l cols) =
      (updateTraps fl shield costello bd bf t ov i names cols).map (colsInUnits l) := by
  intro names
  induction names with
  | nil => intros; rfl
  | cons n rest ih =>
    intro i cols
    rw [updateTraps, updateTraps, colsInUnits_get, pyGet2_scale]
    cases cols.get n with
    | error e => rfl
    | ok c =>
      cases pyGet2 bd t i with
      | error e => rfl
      | ok d =>
        cases pyGet2 bf t i with
        | error e => rfl
        | ok f =>
          have h := updateIceCol_scale hl hfl shield costello c.ice c.ej t ov d f
          simp only [Except.map, bind, Except.bind, inUnits]
          rw [h]
          cases updateIceCol fl shield costello c.ice c.ej t ov d f with
          | error e => rfl
          | ok ice =>
            simp only [Except.map]
            exact (congrArg _ (colsInUnits_set l n { c with ice := ice } cols)).trans (ih (i + 1) _)

/-- **C127** (columns) Measuring every thickness in another unit, that is ice, ejecta, overturn
depth, sedimentation depth and the shielding thickness all multiplied by `l > 0`, multiplies the
resulting columns by `l` and changes nothing else, exceptions included.  It holds in exact
arithmetic and under every rounding that commutes with the factor, as binary rounding does with
powers of two. -/
theorem C127_columns {fl : K → K} {l : K} (hl : 0 < l) (hfl : ∀ x, fl (l * x) = l * fl x)
    (shield : K) (costello : Bool) (names : List String) (cols : PyDict (StratCol K))
    (overturn : List K) (bd bf : List (List K)) :
    updateStratCols fl (l * shield) costello names (colsInUnits l cols) (overturn.map (l * ·))
        (bd.map (List.map (l * ·))) bf =
      (updateStratCols fl shield costello names cols overturn bd bf).map (colsInUnits l) := by
  unfold updateStratCols
  suffices h : ∀ (ovs : List K) (t : Nat) (cols : PyDict (StratCol K)),
      updateStratColsFrom fl (l * shield) costello names (bd.map (List.map (l * ·))) bf t
          (ovs.map (l * ·)) (colsInUnits l cols) =
        (updateStratColsFrom fl shield costello names bd bf t ovs cols).map (colsInUnits l) from
    h overturn 0 cols
  intro ovs
  induction ovs with
  | nil => intros; rfl
  | cons o rest ih =>
    intro t cols
    rw [List.map_cons, updateStratColsFrom, updateStratColsFrom,
      updateTraps_scale hl hfl shield costello bd bf t o names 0 cols]
    cases updateTraps fl shield costello bd bf t o 0 names cols with
    | error e => rfl
    | ok c => exact ih (t + 1) c

/-! ## The table -/

/-- A row before merging, in other units. -/
def rowInUnits (l m : K) (r : Row K) : Row K :=
  { time := m * r.time, ice := l * r.ice, ejecta := l * r.ejecta, label := r.label }

theorem runs_map_rows {α β : Type} (lab : α → String) (lab' : β → String) (f : α → β)
    (h : ∀ a, lab' (f a) = lab a) : ∀ rows : List α,
    runs lab' (rows.map f) = (runs lab rows).map fun g => (f g.1, g.2.map f)
  | [] => rfl
  | a :: rows => by
    rw [List.map_cons, runs, runs, runs_map_rows lab lab' f h rows]
    cases runs lab rows with
    | nil => rfl
    | cons b rest =>
      simp only [List.map_cons, h]
      by_cases hab : lab a = lab b.1
      · rw [if_pos hab, if_pos hab]; rfl
      · rw [if_neg hab, if_neg hab]; rfl

theorem sum_inUnits (l : K) : ∀ xs : List K, (xs.map (l * ·)).sum = l * xs.sum
  | [] => by simp
  | x :: xs => by rw [List.map_cons, List.sum_cons, List.sum_cons, sum_inUnits l xs, mul_add]

theorem getLastD_map {α β : Type} (f : α → β) (a : α) (l : List α) :
    (l.map f).getLastD (f a) = f (l.getLastD a) := by
  rw [List.getLastD_eq_getLast?, List.getLastD_eq_getLast?, List.getLast?_map]
  cases l.getLast? <;> rfl

theorem aggRow_scale (l m : K) (g : Row K × List (Row K)) :
    aggRow (rowInUnits l m g.1, g.2.map (rowInUnits l m)) = rowInUnits l m (aggRow g) := by
  have h : ∀ (q : Row K → K), (∀ r, q (rowInUnits l m r) = l * q r) →
      ((rowInUnits l m g.1 :: g.2.map (rowInUnits l m)).map q).sum = l * ((g.1 :: g.2).map q).sum := by
    intro q hq
    rw [← sum_inUnits, ← List.map_cons, List.map_map, List.map_map]
    exact congrArg _ (List.map_congr_left fun r _ => hq r)
  unfold aggRow
  simp only []
  rw [getLastD_map, h (·.ice) (fun _ => rfl), h (·.ejecta) (fun _ => rfl)]
  rfl

theorem mergeAdjacent_scale (l m : K) (rows : List (Row K)) :
    mergeAdjacent (rows.map (rowInUnits l m)) = (mergeAdjacent rows).map (rowInUnits l m) := by
  unfold mergeAdjacent
  rw [groupRuns_eq, groupRuns_eq, runs_map_rows (·.label) (·.label) (rowInUnits l m) (fun _ => rfl),
    List.map_map, List.map_map]
  exact List.map_congr_left fun g _ => aggRow_scale l m g

theorem suffixSums_scale (l : K) : ∀ xs : List K,
    suffixSums (xs.map (l * ·)) = (suffixSums xs).map (l * ·)
  | [] => rfl
  | x :: xs => by
    rw [List.map_cons, suffixSums, suffixSums, sum_inUnits, ← mul_add, suffixSums_scale l xs,
      List.map_cons]

theorem addDepthPct_scale [FloorRing K] {l : K} (hl : 0 < l) (m : K) (rows : List (Row K)) :
    addDepthPct (rows.map (rowInUnits l m)) = (addDepthPct rows).map (layerInUnits l m) := by
  unfold addDepthPct
  simp only []
  rw [rev_cumsum, rev_cumsum, List.map_map]
  have h : rows.map ((fun r : Row K => r.ice + r.ejecta) ∘ rowInUnits l m) =
      (rows.map fun r => r.ice + r.ejecta).map (l * ·) := by
    rw [List.map_map]
    exact List.map_congr_left fun r _ => (mul_add l r.ice r.ejecta).symm
  rw [h, suffixSums_scale, List.zipWith_map, List.map_zipWith]
  congr 1
  funext r d
  have h1 : (l * r.ice + l * r.ejecta = 0) ↔ r.ice + r.ejecta = 0 := by
    rw [← mul_add, mul_eq_zero]
    exact or_iff_right hl.ne'
  have h2 : 100 * (l * r.ice) / (l * r.ice + l * r.ejecta) = 100 * r.ice / (r.ice + r.ejecta) := by
    rw [← mul_add, mul_left_comm, mul_div_mul_left _ _ hl.ne']
  have h3 : (if l * r.ice + l * r.ejecta = 0 then none
      else some (round4 (100 * (l * r.ice) / (l * r.ice + l * r.ejecta)))) =
      if r.ice + r.ejecta = 0 then none else some (round4 (100 * r.ice / (r.ice + r.ejecta))) := by
    by_cases h0 : r.ice + r.ejecta = 0
    · rw [if_pos h0, if_pos (h1.2 h0)]
    · rw [if_neg h0, if_neg (fun h => h0 (h1.1 h)), h2]
  exact congrArg (StratRow.mk (l * r.ice) (l * r.ejecta) r.label (m * r.time) (l * d)) h3

theorem rowLabel_scale {l : K} (hl : 0 < l) (m thickMin : K) (s : Step K) :
    rowLabel (l * thickMin) (stepInUnits l m s) = rowLabel thickMin s := by
  have h : ∀ x : K, (l * x > l * thickMin) ↔ x > thickMin := fun x =>
    ⟨fun h => lt_of_mul_lt_mul_left h hl.le, fun h => mul_lt_mul_of_pos_left h hl⟩
  simp only [rowLabel, stepInUnits, h]

/-- **C127** (tables) The table of a cold trap does not depend on the units either.  With
thicknesses and the minimum thickness in another unit of length, and the times and the age of the
cold trap in another unit of time, the table has the same layers with the same labels and the same
percentages of ice; thicknesses and depths come in the new unit of length and times in the new
unit of time. -/
theorem C127_tables [FloorRing K] {l m : K} (hl : 0 < l) (hm : 0 < m) (thickMin tol : K)
    (after : Bool) (age : K) (steps : List (Step K)) :
    makeStratCol (l * thickMin) tol after (m * age) (steps.map (stepInUnits l m)) =
      (makeStratCol thickMin tol after age steps).map (List.map (layerInUnits l m)) := by
  have hrows : labelRows (l * thickMin) (steps.map (stepInUnits l m)) =
      (labelRows thickMin steps).map fun p => (p.1, rowInUnits l m p.2) := by
    unfold labelRows
    rw [List.map_map, List.map_map]
    apply List.map_congr_left
    intro s _
    simp only [Function.comp, rowLabel_scale hl]
    rfl
  have hdrop : ∀ rows : List (Option String × Row K),
      dropUnlabelled (rows.map fun p => (p.1, rowInUnits l m p.2)) =
        (dropUnlabelled rows).map (rowInUnits l m) := by
    intro rows
    unfold dropUnlabelled
    rw [List.filterMap_map, List.map_filterMap]
    congr 1
    funext p
    rcases p with ⟨_ | _, _⟩ <;> rfl
  have hcut : ∀ rows : List (Option String × Row K),
      cutAtAge (m * age) tol (rows.map fun p => (p.1, rowInUnits l m p.2)) =
        (cutAtAge age tol rows).map (List.map fun p => (p.1, rowInUnits l m p.2)) := by
    intro rows
    unfold cutAtAge
    have ht : ∀ x : K, (m * x < m * age + rtolAbs (m * age) tol) ↔ x < age + rtolAbs age tol := by
      intro x
      unfold rtolAbs
      rw [abs_mul, abs_of_pos hm, mul_assoc, ← mul_add]
      exact ⟨fun h => lt_of_mul_lt_mul_left h hm.le, fun h => mul_lt_mul_of_pos_left h hm⟩
    have hf : (rows.map fun p => (p.1, rowInUnits l m p.2)).filter
        (fun r => decide (r.2.time < m * age + rtolAbs (m * age) tol)) =
        (rows.filter fun r => decide (r.2.time < age + rtolAbs age tol)).map
          fun p => (p.1, rowInUnits l m p.2) := by
      rw [List.filter_map]
      congr 1
      apply List.filter_congr
      intro p _
      exact decide_eq_decide.2 (ht p.2.time)
    rw [hf]
    cases rows.filter fun r => decide (r.2.time < age + rtolAbs age tol) with
    | nil => rfl
    | cons r rest =>
      simp only [List.map_cons, Except.map, rowInUnits, mul_zero]
  unfold makeStratCol
  simp only [bind, Except.bind]
  rw [hrows]
  cases after with
  | false =>
    simp only [Bool.false_eq_true, if_false, Except.map]
    rw [hdrop, mergeAdjacent_scale, addDepthPct_scale hl]
  | true =>
    simp only [if_true]
    rw [hcut]
    cases cutAtAge age tol (labelRows thickMin steps) with
    | error e => rfl
    | ok rows =>
      simp only [Except.map]
      rw [hdrop, mergeAdjacent_scale, addDepthPct_scale hl]

/-! ## Instances -/

/-- Metres to centimetres: a column in the Costello mode with gardening and sedimentation. -/
example : (updateStratCols (fun x : ℚ => x) 40 true ["a"]
      (colsInUnits 100 [("a", ⟨[2, 1], [1, 0], ["x", ""]⟩)]) [100, 50] [[0], [300]] [[0], [1/2]]).map
      (fun c => c.map fun p => (p.1, p.2.ice)) = .ok [("a", [100, 50])] ∧
    (updateStratCols (fun x : ℚ => x) (2/5) true ["a"]
      [("a", ⟨[2, 1], [1, 0], ["x", ""]⟩)] [1, 1/2] [[0], [3]] [[0], [1/2]]).map
      (fun c => c.map fun p => (p.1, p.2.ice)) = .ok [("a", [1, 1/2])] := by
  constructor <;> decide +kernel

/-- The shielding thickness of 0.4 m is a length too: with everything else in centimetres and the
shield left at 0.4 the Cannon erosion of a column changes. -/
example : (updateStratCols (fun x : ℚ => x) (2/5) false ["a"]
      (colsInUnits 100 [("a", ⟨[1], [1/5], ["x"]⟩)]) [10] [[0]] [[0]]).map
      (fun c => c.map fun p => p.2.ice) = .ok [[100]] ∧
    (updateStratCols (fun x : ℚ => x) (2/5) false ["a"]
      [("a", ⟨[1], [1/5], ["x"]⟩)] [1/10] [[0]] [[0]]).map
      (fun c => c.map fun p => p.2.ice) = .ok [[9/10]] := by
  constructor <;> decide +kernel

/-- A table with a merged layer, cut at the age of the trap, in centimetres and years. -/
example : makeStratCol (10 : ℚ) (1/1000) true (3 * 1000)
      ([⟨4, 1, 0, ""⟩, ⟨3, 1/2, 0, ""⟩, ⟨2, 1/4, 0, ""⟩, ⟨1, 1, 3, "x"⟩].map (stepInUnits 100 1000)) =
      .ok [⟨0, 0, "Formation age", 3000, 475, none⟩, ⟨75, 0, "Ice", 2000, 475, some 100⟩,
        ⟨100, 300, "x", 1000, 400, some 25⟩] ∧
    makeStratCol (1/10 : ℚ) (1/1000) true 3
      [⟨4, 1, 0, ""⟩, ⟨3, 1/2, 0, ""⟩, ⟨2, 1/4, 0, ""⟩, ⟨1, 1, 3, "x"⟩] =
      .ok [⟨0, 0, "Formation age", 3, 19/4, none⟩, ⟨3/4, 0, "Ice", 2, 19/4, some 100⟩,
        ⟨1, 3, "x", 1, 4, some 25⟩] := by
  constructor <;> decide +kernel

end MoonPIES
