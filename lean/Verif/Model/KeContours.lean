import Verif.Model.KeNotebook
import Verif.Model.GridFig
import Verif.Model.Main

/-!
# Kinetic energy of all ejecta on a grid

`/repo/notebooks/figure_scripts/older_scripts/KE_contours.py`.  Left out: 32-bit rounding of the grid,
the rounding of exported numbers to six digits, the image written with rasterio, and reading the
file, whose list of 11 columns is that of an older crater list; rows of the crater list are the input.
-/

namespace MoonPIES

/-- `R_MOON` (KE_contours.py:22) and the defaults `rp` of lines 233 and 254. -/
noncomputable def kcR : ℝ := 1737.4 * 1e3

/-- A row of the table: latitude, longitude and radius [m]. -/
structure KcCrater where
  lat : ℝ
  lon : ℝ
  rad : ℝ

open Classical in
/-- `read_crater_list` (KE_contours.py:53-79), the columns used later: metres, and no craters above
250 km. -/
noncomputable def kcCraters (rows : List RawCrater) : List KcCrater :=
  (rows.filter fun r => decide (r.diam * 1000 ≤ 250e3)).map fun r =>
    { lat := r.lat, lon := r.lon, rad := r.diam * 1000 / 2 }

/-- The axes of the grid (KE_contours.py:40-42, 226-231): 1 km steps without the last end. -/
noncomputable def kcAxes : Except PyErr (List ℝ × List ℝ) := do
  let y ← npArange 400e3 (-400e3) (-1e3)
  let x ← npArange (-400e3) 400e3 1e3
  .ok (y, x)

open Classical in
/-- `ke` of `ejecta_blanket` (KE_contours.py:203-223) at one distance: nothing inside the crater. -/
noncomputable def kcEnergy (d R : ℝ) : Flt :=
  if d < R then .fin 0
  else mps2KE (ballisticSpherical nbTheta d nbG kcR) (thick2mass (nbThickness d R))

/-- `ke` of one crater at one place; NaN where the distance is NaN (KE_contours.py:296-308). -/
noncomputable def kcEnergyAt (p : Option ℝ × ℝ) (c : KcCrater) : Flt :=
  match p.1 with
  | none => .nan
  | some lat => match gcDist c.lon c.lat p.2 lat kcR with
    | none => .nan
    | some d => kcEnergy d c.rad

/-- `np.sum`: NaN as soon as one term is. -/
noncomputable def fltSum (l : List Flt) : Flt := l.foldl Flt.add (.fin 0)

/-- `plotting = np.sum(ke, axis=2)` (KE_contours.py:280-308, 329).  Distances are stored into an
array of shape `(nx, ny, n)`. -/
noncomputable def kcGrid (craters : List KcCrater) : Except PyErr (Arr2 Flt) := do
  let (ys, xs) ← kcAxes
  let g := gridLatLon ys xs kcR
  let slices ← craters.mapM fun c =>
    npAssign xs.length ys.length ⟨g.rows, g.cols, fun i j => kcEnergyAt (g.entry i j) c⟩
  .ok ⟨xs.length, ys.length, fun i j => fltSum (slices.map fun s => s.entry i j)⟩

/-- `plottingTNT` (KE_contours.py:353-355). -/
noncomputable def kcTnt (g : Arr2 Flt) : Arr2 Flt :=
  ⟨g.rows, g.cols, fun i j => ((g.entry i j).smul (1 / 4184000000)).smul 1000000⟩

/-- `arr[i, j]`. -/
def Arr2.get {α : Type} (a : Arr2 α) (i j : Nat) : Except PyErr α :=
  if i < a.rows ∧ j < a.cols then .ok (a.entry i j) else .error .indexError

/-- One line of `georef_KE_xy.csv` (KE_contours.py:380-384). -/
noncomputable def kcLineXY (ys xs : List ℝ) (tnt : Arr2 Flt) (i j : Nat) : Except PyErr (ℝ × ℝ × Flt) := do
  let x ← pyGet xs i
  let y ← pyGet ys j
  let e ← tnt.get i j
  .ok (x, y, e)

/-- The lines of `georef_KE_xy.csv` (KE_contours.py:378-385): `i` counts `_GRD_X`, `j` counts `_GRD_Y`
up to the length of `_GRD_X`. -/
noncomputable def kcExportXY (craters : List KcCrater) : Except PyErr (List (ℝ × ℝ × Flt)) := do
  let (ys, xs) ← kcAxes
  let g ← kcGrid craters
  let lines ← (List.range xs.length).mapM fun i => (List.range xs.length).mapM fun j =>
    kcLineXY ys xs (kcTnt g) i j
  .ok lines.flatten

/-- One line of `georef_KE.csv` (KE_contours.py:393-397). -/
noncomputable def kcLineLonLat (ll : Arr2 (Option ℝ × ℝ)) (tnt : Arr2 Flt) (i j : Nat) :
    Except PyErr (ℝ × Option ℝ × Flt) := do
  let p ← ll.get i j
  let e ← tnt.get i j
  .ok (p.2, p.1, e)

/-- The lines of `georef_KE.csv` (KE_contours.py:374, 391-398): longitude, latitude, energy. -/
noncomputable def kcExportLonLat (craters : List KcCrater) :
    Except PyErr (List (ℝ × Option ℝ × Flt)) := do
  let (ys, xs) ← kcAxes
  let g ← kcGrid craters
  let ll := gridLatLon ys xs kcR
  let lines ← (List.range ll.rows).mapM fun i => (List.range ll.cols).mapM fun j =>
    kcLineLonLat ll (kcTnt g) i j
  .ok lines.flatten

/-- Where `plt.contour(Z, extent=(-400, 400, -400, 400))` puts the `i`-th of `n` rows or columns (KE_contours.py:331,
357): without an origin the first is at the lower limit and the last at the upper.  Inverting the axis
(line 332) moves labels and data together. -/
noncomputable def kcContourAt (n i : Nat) : ℝ := -400 + 800 * i / (n - 1)

/-- `ice_melted` (KE_contours.py:175-201): mass and depth of melted ice. -/
noncomputable def iceMelted (ke T Cp frac_mix frac_ice frac_rad : ℝ) : Flt × Flt :=
  let Q := frac_ice * frac_rad * frac_mix * (ke / 1000)
  let Mice := npDiv Q (333 + Cp * (272 - T))
  let Dice := match Mice with
    | .fin m => npDiv m (frac_ice * 1500)
    | .inf => .inf
    | .nan => .nan
  (Mice, Dice)

end MoonPIES
