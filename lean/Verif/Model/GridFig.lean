import Verif.Model.Grid

/-!
# The figure of gridded outputs

`/repo/notebooks/figure_scripts/plot_figs.py` 1235-1282 (`grid_plots`): the two arrays that are
drawn.  Axes, colours and labels are left out.
-/

namespace MoonPIES

/-- Addition of floats; the values summed here are never negative infinity. -/
noncomputable def Flt.add : Flt → Flt → Flt
  | .fin a, .fin b => .fin (a + b)
  | .nan, _ => .nan
  | _, .nan => .nan
  | _, _ => .inf

/-- `np.nansum` of a list. -/
noncomputable def fltNansum (l : List Flt) : Flt := l.foldl (fun a b => a.add b.nanToZero) (.fin 0)

/-- `np.nansum(ejthick, axis=0)` of slices of shape `(rows, cols)`. -/
noncomputable def sumSlices (rows cols : Nat) (gs : List (Arr2 Flt)) : Arr2 Flt :=
  ⟨rows, cols, fun i j => fltNansum (gs.map (fun g => g.entry i j))⟩

/-- The start of the default configuration, in years (config.py:130). -/
noncomputable def defaultStart : ℝ := 4.25e9

/-- The age (in Gyr) and the total ejecta thickness drawn by `grid_plots` (plot_figs.py:1249-1253).
`_cfg` and `_timestart` belong to the configuration of the figure: it decides the crater table and the
axes, but `get_grid_outputs` is called without it and uses the default configuration. -/
noncomputable def gridPlots (_cfg : EjCfg) (_timestart : ℝ) (df sorted : List DatedCrater) (ys xs : List ℝ) :
    Except PyErr (Arr2 ℝ × Arr2 Flt) := do
  let (age, ej) ← getGridOutputs EjCfg.default defaultStart df sorted ys xs
  .ok (⟨age.rows, age.cols, fun i j => age.entry i j / 1e9⟩, sumSlices xs.length ys.length ej)

end MoonPIES
