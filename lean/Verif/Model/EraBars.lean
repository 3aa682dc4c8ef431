import Verif.Model.IceByModule

/-!
# Bars by era

`/repo/notebooks/figure_scripts/plot_figs.py` 838-917 (`plot_by_module`) after the columns are
known: statistics by era, bars with error bars, and shading of the losses.
-/

namespace MoonPIES

/-- `era_labels` (plot_figs.py:843). -/
def eraLabels : List String := ["Pre-Nec.", "Nec.", "Imb.", "Era.", "Cop."]

/-- `bins`: `era_ages` reversed, in years (plot_figs.py:844, 870). -/
noncomputable def eraBins : List ℝ := ([4.26, 3.97, 3.83, 3.2, 1.1, 0].reverse).map (· * 1e9)

/-- `pd.cut(x, bins=bins, labels=labels)` of a value: `searchsorted` from the left in increasing
bins, so intervals include their right end; values outside get no label. -/
noncomputable def pdCut (bins : List ℝ) (labels : List String) (x : ℝ) : Option String :=
  let i := bins.countP (fun b => decide (b < x))
  if i = 0 ∨ i = bins.length then none else labels[i - 1]?

/-- The values of a column in the group of a label (plot_figs.py:872). -/
noncomputable def eraValues (time col : List ℝ) (label : String) : List ℝ :=
  ((time.zip col).filter (fun p => decide (pdCut eraBins eraLabels.reverse p.1 = some label))).map
    (·.2)

/-- An entry of `df_mean`, `df_min` and `df_max`. -/
structure EraStat where
  mean : ℝ
  min : ℝ
  max : ℝ

/-- `icegb.agg('mean')`, `'min'`, `'max'` (plot_figs.py:873-875); NaN for an empty group. -/
noncomputable def eraStat (time col : List ℝ) (label : String) : Option EraStat :=
  match eraValues time col label with
  | [] => none
  | x :: l => some { mean := (x :: l).sum / (x :: l).length, min := l.foldl Min.min x,
                     max := l.foldl Max.max x }

/-- A bar with its error bars (plot_figs.py:904-908): `low` and `high` are the ends of the error
bar. -/
structure EraBar where
  left : ℝ
  right : ℝ
  height : ℝ
  low : ℝ
  high : ℝ

/-- The bar of the `i`th column in the `j`th of `n` eras (plot_figs.py:889, 904-908).  Bars are
centred on their positions. -/
noncomputable def eraBar (n i j : Nat) (s : EraStat) : EraBar :=
  let width : ℝ := 1 / n
  let x : ℝ := j - width * (n - 1) / 2 + i * width
  { left := x - width / 2, right := x + width / 2, height := s.mean,
    low := s.mean - Max.max (s.mean - s.min) 1e-9, high := s.mean + (s.max - s.mean) }

/-- The bars drawn: `(i, j)` are the positions of the column and the era (plot_figs.py:900-908);
columns of losses are skipped and NaN draws nothing. -/
noncomputable def figBar (t : ModuleTable) (i j : Nat) : Option EraBar := do
  let k ← figOrder[i]?
  if k = .gardening ∨ k = .bsed then none
  else do
    let label ← eraLabels[j]?
    let s ← eraStat (t .time) (figCol t k) label
    some (eraBar eraLabels.length i j s)

/-- The shading of a loss (plot_figs.py:890-898): over each era a rectangle from its left to its
right divider and from 0 to the value of `df_mean`. -/
noncomputable def figShade (t : ModuleTable) (k : FigCol) (j : Nat) : Option (ℝ × ℝ × ℝ) := do
  let label ← eraLabels[j]?
  let s ← eraStat (t .time) (figCol t k) label
  some ((j : ℝ) - 0.5, (j : ℝ) + 1 - 0.5, s.mean)

end MoonPIES
