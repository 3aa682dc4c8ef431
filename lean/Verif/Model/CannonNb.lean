import Verif.Model.Basic
import Verif.Model.Geo
import Verif.Model.AgesToTime
import Verif.Model.TimeArray
import Mathlib.Analysis.SpecialFunctions.Pow.Real

/-!
# The notebook on the craters of Cannon et al. (2020)

`/repo/notebooks/cannon2020.ipynb` (lines of the file): distances on a grid, the choice of
craters near the pole, transient radii, the polar grid and the nearest grid point, over ℝ.  The
notebook imports a former module `mixing` for `latlon2xy`; here it is the `latlon2xy` of
`/repo/moonpies/moonpies.py`, in kilometres with the notebook's `R_MOON = 1737`.
-/

namespace MoonPIES

open Real

/-- `np.arcsin`: NaN (`none`) outside of [-1, 1]. -/
noncomputable def npArcsin (x : ℝ) : Option ℝ :=
  if x < -1 ∨ 1 < x then none else some (arcsin x)

/-- `gc_dist` of the notebook (940-950 and 1481-1491): the arc sine where the package has
`arctan2`. -/
noncomputable def nbGcDist (lon1 lat1 lon2 lat2 rp : ℝ) : Option ℝ :=
  let lon1 := deg2rad lon1
  let lat1 := deg2rad lat1
  let lon2 := deg2rad lon2
  let lat2 := deg2rad lat2
  let dlon := lon2 - lon1
  let dlat := lat2 - lat1
  let a := sin (dlat / 2) ^ 2 + cos lat1 * cos lat2 * sin (dlon / 2) ^ 2
  ((npSqrt a).bind npArcsin).map (fun s => rp * 2 * s)

/-- `dist` (952-954 and 1009-1011); the root of a sum of squares is never NaN. -/
noncomputable def cnDist (x1 y1 x2 y2 : ℝ) : ℝ :=
  sqrt ((x2 - x1) ^ 2 + (y2 - y1) ^ 2)

/-- The columns of the crater table that the notebook uses, in km. -/
structure NbCrater where
  x : ℝ
  y : ℝ
  rad : ℝ

open Classical in
/-- One grid point of the loop body of `get_ejecta_distances` (1022-1025, again at 1152-1155):
`X` and `Y` are already measured from the crater when `dist` measures them from it again; `none`
is NaN. -/
noncomputable def nbEjDist (c : NbCrater) (gx gy : ℝ) : Option ℝ :=
  let X := gx - c.x
  let Y := gy - c.y
  let d := cnDist c.x c.y X Y
  if d < c.rad then none else some d

/-- The assignment `ej_dist_all[:, :, i] = ej_dist` (1027) of an array of `n` by `m` into a slice
of `a` by `b`: NumPy repeats axes of length 1 and otherwise raises `ValueError`. -/
def assignSlice {α : Type} (a b n m : Nat) (v : Nat → Nat → α) : Except PyErr (Nat → Nat → α) :=
  if (n = a ∨ n = 1) ∧ (m = b ∨ m = 1) then
    .ok (fun i j => v (if n = 1 then 0 else i) (if m = 1 then 0 else j))
  else .error .valueError

/-- `get_ejecta_distances` (1013-1028) on the open grids of `np.ogrid`: `grd_x` has shape
`(n, 1)` and `grd_y` shape `(1, m)`, whose `len` is 1.  One array for each crater. -/
noncomputable def nbEjectaDistances (df : List NbCrater) (gx gy : List ℝ) :
    Except PyErr (List (Nat → Nat → Option ℝ)) :=
  df.mapM (fun c => assignSlice gx.length 1 gx.length gy.length
    (fun i j => nbEjDist c (gx.getD i 0) (gy.getD j 0)))

/-- Length of `np.ogrid[-grdsize:grdsize:grdstep]` (1150) along one axis. -/
noncomputable def ogridLen (grdsize grdstep : ℝ) : Nat := (⌈(grdsize - -grdsize) / grdstep⌉).toNat

/-- The cell at 1149-1156 for one crater: a slice of `2 * grdsize` squared whatever the step. -/
noncomputable def nbGridCell (c : NbCrater) (grdsize : Nat) (grdstep : ℝ) :
    Except PyErr (Nat → Nat → Option ℝ) :=
  let n := ogridLen grdsize grdstep
  assignSlice (grdsize * 2) (grdsize * 2) n n
    (fun i j => nbEjDist c (-grdsize + i * grdstep) (-grdsize + j * grdstep))

/-- A row of the table of Robbins (2018) as renamed at 1241-1247. -/
structure NbRow where
  lat : ℝ
  lon : ℝ
  diam : ℝ

/-- The columns `rad`, `x` and `y` (1248-1250). -/
noncomputable def NbRow.crater (r : NbRow) : NbCrater :=
  let p := latlon2xy r.lat r.lon 1737
  ⟨p.1, p.2, r.diam / 2⟩

/-- `neargrd` (1279-1283): the condition on one row. -/
def nearGrd (r : NbRow) : Prop :=
  20.9 ≤ r.diam ∧ |r.crater.x| < 400 + 4 * r.crater.rad ∧ |r.crater.y| < 400 + 4 * r.crater.rad

/-- `inside` (1287), printed as "within 250 km of S. pole". -/
def nbInside (r : NbRow) : Prop := nearGrd r ∧ |r.crater.x| < 250 ∧ |r.crater.y| < 250

/-- `outside` (1291), printed as "with ejecta that reaches grid". -/
def nbOutside (r : NbRow) : Prop := nearGrd r ∧ 400 < |r.crater.x| ∧ 400 < |r.crater.y|

/-- `outside_reaches_pole` (1295-1297), printed as "with ejecta that reaches < 6 deg from S
pole". -/
def nbReaches (r : NbRow) : Prop :=
  nbOutside r ∧ |r.crater.x| < 181.94 + 4 * r.crater.rad ∧ |r.crater.y| < 181.94 + 4 * r.crater.rad

open Classical in
/-- `get_transient_crater_rad` (1469-1475), in km. -/
noncomputable def nbTransient (rad rsc : ℝ) : ℝ :=
  if rad < rsc then 0.7 * rad else 0.7 * rsc ^ (0.15 : ℝ) * rad ^ (0.85 : ℝ)

/-- The latitudes of `polar_grid_360` (1583-1593): from `minlat` up to the pole and back.  The
longitudes are `np.linspace(0, 360, size)`. -/
noncomputable def polarLats (deg : ℝ) (size : Nat) (north : Bool) : Except PyErr (List ℝ) :=
  let sign : ℝ := if north then 1 else -1
  let minlat := sign * (90 - deg)
  match linspace minlat (sign * 90) ((size / 2 + 1 : Nat) : Int) with
  | .error e => .error e
  | .ok l => .ok (l ++ l.dropLast.reverse)

/-- `nearest2D` (1655-1658): `argmin` of the flattened array, row by row. -/
noncomputable def nearest2D (x y : ℝ) (xarr yarr : List ℝ) : Except PyErr Nat :=
  argmin (xarr.flatMap (fun gx => yarr.map (fun gy => sqrt ((gx - x) ^ 2 + (gy - y) ^ 2))))

end MoonPIES
