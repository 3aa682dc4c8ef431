import Verif.Model.EjectaFig

/-!
# The figure of ejecta thickness and mixing depth by crater radius

`ejecta_bsed` (notebooks/figure_scripts/plot_figs.py:332-377).  The version stamp is left out.
-/

namespace MoonPIES

/-- `np.geomspace(a, b, n)` for positive ends and `n ≥ 2`: powers of ten at equal steps of the exponent,
the ends set exactly.  For other ends, which NumPy takes as complex numbers or refuses, it is an error. -/
noncomputable def geomspace (a b : ℝ) (n : Nat) : Except PyErr (List ℝ) :=
  if 0 < a ∧ 0 < b then
    .ok ((List.range n).map fun i =>
      if i = 0 then a
      else if i + 1 = n then b
      else (10 : ℝ) ^ (Real.logb 10 a + i * ((Real.logb 10 b - Real.logb 10 a) / ((n : ℝ) - 1))))
  else .error .valueError

/-- Kinds of craters in the figure, by the keys of `radii` (plot_figs.py:339-342). -/
inductive EjKind
  | simple | complex | basin
deriving DecidableEq

/-- `radii` (plot_figs.py:337-342). -/
noncomputable def ejBsedRadii (c : EjCfg) : EjKind → Except PyErr (List ℝ)
  | .simple => geomspace 1e2 (c.simple2complex / 2 - 10) 10
  | .complex => geomspace (c.simple2complex / 2 + 10) (c.complex2peakring / 2 - 10) 10
  | .basin => geomspace (c.complex2peakring / 2 + 10) 6.6e5 10

/-- A marker in both panels. -/
structure EjMark where
  rad : ℝ
  thick : Flt
  depth : Flt

/-- One marker at one distance (plot_figs.py:353-366). -/
noncomputable def ejMark (c : EjFigCfg) (dist rad : ℝ) : EjMark :=
  let thick := if dist < rad then .fin 0 else ejThickness c.ej (some dist) rad
  let depth := match mixingRatio c.petro c.mixing_ratio_a c.mixing_ratio_b (some dist) with
    | some mr => thick.smul mr
    | none => .nan
  ⟨rad, thick, depth⟩

/-- The markers of one distance and kind, and the place of the text "Distance=…", which is put beside
simple craters only. -/
structure EjSeries where
  dist : ℝ
  kind : EjKind
  marks : List EjMark
  /-- positions in the upper and the lower panel (plot_figs.py:372-374) -/
  text : Option ((ℝ × Flt) × (ℝ × Flt))

/-- `dist_arr` (plot_figs.py:346). -/
def ejBsedDists : List ℝ := [1e3, 1e4, 1e5, 1e6]

/-- The body of both loops (plot_figs.py:351-374). -/
noncomputable def ejSeries (c : EjFigCfg) (dist : ℝ) (k : EjKind) (rads : List ℝ) :
    Except PyErr EjSeries :=
  let marks := rads.map (ejMark c dist)
  if k = .simple then
    match marks with
    | m :: _ => .ok ⟨dist, k, marks, some ((m.rad - 40, m.thick), (m.rad - 40, m.depth))⟩
    | [] => .error .indexError
  else .ok ⟨dist, k, marks, none⟩

/-- `ejecta_bsed` (plot_figs.py:332-377). -/
noncomputable def ejBsedFigure (c : EjFigCfg) : Except PyErr (List EjSeries) := do
  let rs ← ejBsedRadii c.ej .simple
  let rc ← ejBsedRadii c.ej .complex
  let rb ← ejBsedRadii c.ej .basin
  let rows ← ejBsedDists.mapM fun dist =>
    [(EjKind.simple, rs), (.complex, rc), (.basin, rb)].mapM fun p => ejSeries c dist p.1 p.2
  .ok rows.flatten

end MoonPIES
