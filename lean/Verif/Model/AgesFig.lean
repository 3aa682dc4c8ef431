import Verif.Model.Main
import Verif.Model.RngArg
import Mathlib.Data.List.Sort

/-!
# The figure of crater and basin ages

`/repo/notebooks/figure_scripts/plot_figs.py` 127-197 (`crater_basin_ages`): a marker with an error
bar for each crater in the main panel and for each basin in an inset, over shaded eras.  Basins that
throw ejecta into a cold trap have a star before their name.
-/

namespace MoonPIES

variable {σ : Type}

/-- A marker with its error bar: the name on the vertical axis, and age, lower and upper error in Ga
(plot_figs.py:166-169). -/
structure AgeBar where
  label : String
  age : ℝ
  low : ℝ
  upp : ℝ

/-- A panel: its bars from the lowest to the highest, the limits of its horizontal axis from left to
right, and the names of the eras with the places they are written at. -/
structure AgePanel where
  bars : List AgeBar
  left : ℝ
  right : ℝ
  names : List (String × ℝ)

/-- The figure: both panels and the eras shaded in them, from the first to the second age. -/
structure AgesFigure where
  craters : AgePanel
  basins : AgePanel
  eras : List (String × ℝ × ℝ)

/-- `thick[i].max()` (plot_figs.py:141): `ValueError` for no cold traps. -/
noncomputable def rowMax : List ℝ → Except PyErr ℝ
  | [] => .error .valueError
  | x :: l => .ok (l.foldl max x)

open Classical in
/-- The new name of a row (plot_figs.py:140-143). -/
noncomputable def starred (r : CraterAge ℝ CraterCols) (thick : List ℝ) :
    Except PyErr (CraterAge ℝ CraterCols) := do
  let m ← rowMax thick
  if 0 < m ∧ r.rest.crater.isbasin = true then
    .ok { r with rest := { r.rest with crater :=
      { r.rest.crater with cname := "*" ++ r.rest.crater.cname } } }
  else .ok r

/-- `db.loc[name, "age"] / 1e9` (plot_figs.py:148-149): `KeyError` without such a row.  Several rows
give a series, which the limit of a span cannot be. -/
noncomputable def ageAt (db : CraterTable) (name : String) : Except PyErr ℝ :=
  match db.filter (fun r => decide (r.rest.crater.cname = name)) with
  | [] => .error .keyError
  | [r] => .ok (r.age / 1e9)
  | _ => .error .valueError

/-- The order of `df.sort_values(['age', 'age_upp'])` (plot_figs.py:167). -/
def ageOrder (r s : CraterAge ℝ CraterCols) : Prop :=
  r.age < s.age ∨ (r.age = s.age ∧ r.ageUpp ≤ s.ageUpp)

open Classical in
/-- The bars of a panel (plot_figs.py:167-170).  Sorting by two columns keeps the order of rows that
agree in both. -/
noncomputable def ageBars (df : CraterTable) : List AgeBar :=
  (df.insertionSort ageOrder).map fun r =>
    { label := r.rest.crater.cname, age := r.age / 1e9, low := r.ageLow / 1e9, upp := r.ageUpp / 1e9 }

/-- The eras (plot_figs.py:148-157). -/
noncomputable def agesEras (nec imb : ℝ) : List (String × ℝ × ℝ) :=
  [("pNe.", 4.5, nec), ("Ne.", nec, imb), ("Im.", imb, 3.2), ("Era.", 3.2, 1.1)]

/-- A panel (plot_figs.py:165-193): in the basins, the last era is not named. -/
noncomputable def agePanel (basins : Bool) (df : CraterTable) (eras : List (String × ℝ × ℝ)) :
    AgePanel :=
  let right := if basins then 3.79 else 1.4
  { bars := ageBars df
    left := if basins then 4.35 else 4.4
    right := right
    names := (eras.filter fun e => !(basins && e.1 == "Era.")).map fun e => (e.1, max e.2.2 right) }

/-- `crater_basin_ages` (plot_figs.py:127-197): the crater table is drawn without a seed or generator
(line 137), from two states of the operating system's randomness. -/
noncomputable def agesFigure (g : Gen σ) (c : RunCfg) (d : RunData) (e1 e2 : σ) :
    Except RunErr AgesFigure := do
  let (df, _) ← liftPy (craterBasinListRng g c d e1 e2 .none)
  let dists ← liftPy (coldtrapDists c.ej (df.map (·.rest.crater)) c.coldtrap_names)
  let thick ← thicknessMatrix c df dists
  let df ← liftPy ((df.zip thick).mapM fun p => starred p.1 p.2)
  let dc := df.filter fun r => !r.rest.crater.isbasin
  let db := df.filter fun r => r.rest.crater.isbasin
  let nec ← liftPy (ageAt db "*Nectaris")
  let imb ← liftPy (ageAt db "Imbrium")
  let eras := agesEras nec imb
  .ok { craters := agePanel false dc eras, basins := agePanel true db eras, eras := eras }

end MoonPIES
