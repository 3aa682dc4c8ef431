import Verif.Model.Bsed
import Verif.Model.Flux
import Verif.Model.Ejecta

/-!
# The figure of volatilized fractions

`/repo/notebooks/figure_scripts/plot_figs.py` 598-668 (`volatilized_fraction_bsed`): images of the
melt tables and marks for the ejecta of craters and basins.
-/

namespace MoonPIES

/-- `extent` of `imshow`: left, right, bottom and top edge of the image. -/
structure Extent where
  left : ℝ
  right : ℝ
  bottom : ℝ
  top : ℝ

/-- The value `ax.imshow(cells, extent=e, interpolation='none')` shows at a point of the plane: the
extent is divided into equal cells, the first row is at the top.  What is drawn on the line between
two cells depends on the resolution; here it belongs to the cell on the right and below. -/
noncomputable def imshowAt (cells : List (List ℝ)) (ncols : Nat) (e : Extent) (x y : ℝ) :
    Option ℝ :=
  if e.left < x ∧ x < e.right ∧ e.bottom < y ∧ y < e.top then
    let row := ⌊(e.top - y) / (e.top - e.bottom) * cells.length⌋
    let col := ⌊(x - e.left) / (e.right - e.left) * ncols⌋
    cells[row.toNat]?.bind fun r => r[col.toNat]?
  else none

/-- `100*(1 / (1 + mr))` (plot_figs.py:616, 627-628); -1 would give an infinite extent, which
`imshow` rejects with `ValueError`. -/
noncomputable def ejectaPct (mr : ℝ) : Except PyErr ℝ :=
  if 1 + mr = 0 then .error .valueError else .ok (100 * (1 / (1 + mr)))

/-- `.min()` of an array: `ValueError` if it is empty. -/
noncomputable def arrMin : List ℝ → Except PyErr ℝ
  | [] => .error .valueError
  | x :: l => .ok (l.foldl min x)

/-- `.max()` of an array: `ValueError` if it is empty. -/
noncomputable def arrMax : List ℝ → Except PyErr ℝ
  | [] => .error .valueError
  | x :: l => .ok (l.foldl max x)

/-- `dm.insert(0, 100, 0)` (plot_figs.py:607-608): a first column of zeros with label 100;
`ValueError` if there is a column of this label. -/
noncomputable def insertHundred (t : MeltTable ℝ) : Except PyErr (MeltTable ℝ) :=
  open Classical in
  if (100 : ℝ) ∈ t.temps then .error .valueError
  else .ok ⟨100 :: t.temps, t.rows.map fun r => (r.1, 0 :: r.2)⟩

/-- The extent both images have (plot_figs.py:613-617), from the labels of the table of means. -/
noncomputable def volatExtent (dm : MeltTable ℝ) : Except PyErr Extent := do
  let pct ← dm.rows.mapM fun r => ejectaPct r.1
  let left ← arrMin dm.temps
  let right ← arrMax dm.temps
  let top ← arrMax pct
  .ok ⟨left, right, 0, top⟩

/-- A mark of the figure: two points joined by a line. -/
structure VolatMark where
  temp : ℝ
  low : ℝ
  high : ℝ

/-- A mark from the mixing ratios of some craters (plot_figs.py:627-633): the least and the greatest
ejecta fraction that is a number, at the temperature `temp`. -/
noncomputable def volatMark (temp : ℝ) (mr : List (List (Option ℝ))) : Except PyErr VolatMark := do
  let pct ← (mr.flatten.filterMap id).mapM ejectaPct
  let low ← arrMin pct
  let high ← arrMax pct
  .ok ⟨temp, low, high⟩

/-- What the figure shows: the values of both images at each point, and the marks, which both panels
have. -/
structure VolatFig where
  mean : ℝ → ℝ → Option ℝ
  std : ℝ → ℝ → Option ℝ
  crater : VolatMark
  basinCold : VolatMark
  basinWarm : VolatMark

/-- `volatilized_fraction_bsed` (plot_figs.py:598-668) for the melt tables `mean` and `std`, the crater
and basin list `df` and the ratios `mr` of `get_mixing_ratio_oberbeck`. -/
noncomputable def volatFigure (ej : EjCfg) (bs : BsedCfg ℝ) (mr : Option ℝ → Option ℝ)
    (mean std : MeltTable ℝ) (df : List Crater) (traps : List String) : Except PyErr VolatFig := do
  let dm ← insertHundred mean
  let ds ← insertHundred std
  let e ← volatExtent dm
  let dists ← coldtrapDists ej df traps
  let ratios := dists.map fun r => r.map mr
  let of := fun b => ((df.zip ratios).filter fun p => p.1.isbasin = b).map (·.2)
  let crater ← volatMark bs.polar_ejecta_temp_init (of false)
  let cold ← volatMark bs.basin_ejecta_temp_init_cold (of true)
  let warm ← volatMark bs.basin_ejecta_temp_init_warm (of true)
  let image := fun t : MeltTable ℝ =>
    imshowAt (t.rows.map fun r => r.2.map (· * 100)) t.temps.length e
  .ok ⟨image dm, image ds, crater, cold, warm⟩

end MoonPIES
