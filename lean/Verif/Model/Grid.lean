import Verif.Model.Ejecta

/-!
# Gridded outputs

`/repo/moonpies/moonpies.py` 2433-2542 and 2704-2719, over ℝ.
-/

namespace MoonPIES

/-- `np.arange(start, stop, step)` in exact arithmetic: `ceil((stop - start) / step)` points. -/
def npArange {K : Type} [Field K] [LinearOrder K] [FloorRing K] (start stop step : K) :
    Except PyErr (List K) :=
  if step = 0 then .error .zeroDivisionError
  else .ok ((List.range ⌈(stop - start) / step⌉.toNat).map (fun i : Nat => start + (i : K) * step))

/-- `get_grid_arrays` (moonpies.py:2704-2719): the two axes of the sparse meshgrid, `grdy` of
shape `(ny, 1)` and `grdx` of shape `(1, nx)`. -/
def gridArrays {K : Type} [Field K] [LinearOrder K] [FloorRing K] (ysize xsize step : K) :
    Except PyErr (List K × List K) := do
  let y ← npArange ysize (-ysize - step) (-step)
  let x ← npArange (-xsize) (xsize + step) step
  .ok (y, x)

/-- A two-dimensional array; entries outside the shape mean nothing. -/
structure Arr2 (α : Type) where
  rows : Nat
  cols : Nat
  entry : Nat → Nat → α

/-- NumPy broadcasting of one dimension. -/
def broadcastDim (a b : Nat) : Except PyErr Nat :=
  if a = b then .ok a else if a = 1 then .ok b else if b = 1 then .ok a else .error .valueError

/-- Index into a dimension of size `n` after broadcasting. -/
def bIdx (n i : Nat) : Nat := if n = 1 then 0 else i

/-- `np.where(mask, v, old)` for a scalar `v`. -/
def npWhere {α : Type} (mask : Arr2 Bool) (v : α) (old : Arr2 α) : Except PyErr (Arr2 α) := do
  let r ← broadcastDim mask.rows old.rows
  let c ← broadcastDim mask.cols old.cols
  .ok ⟨r, c, fun i j =>
    if mask.entry (bIdx mask.rows i) (bIdx mask.cols j) then v
    else old.entry (bIdx old.rows i) (bIdx old.cols j)⟩

/-- `dst[k] = src` where `dst[k]` has shape `(rows, cols)`: `src` must broadcast to that shape. -/
def npAssign {α : Type} (rows cols : Nat) (src : Arr2 α) : Except PyErr (Arr2 α) :=
  if (src.rows = rows ∨ src.rows = 1) ∧ (src.cols = cols ∨ src.cols = 1) then
    .ok ⟨rows, cols, fun i j => src.entry (bIdx src.rows i) (bIdx src.cols j)⟩
  else .error .valueError

/-- Latitude (NaN off the disk) and longitude of every grid point: `xy2latlon(grdx, grdy, rp)` on
the sparse grids, shape `(ny, nx)`. -/
noncomputable def gridLatLon (ys xs : List ℝ) (rp : ℝ) : Arr2 (Option ℝ × ℝ) :=
  ⟨ys.length, xs.length, fun i j => xy2latlon (xs.getD j 0) (ys.getD i 0) rp⟩

/-- A crater with its age and its label in the index of the table. -/
structure DatedCrater extends Crater where
  age : ℝ
  label : Nat

open Classical in
/-- `gc_dist(...) < rad * ej_thresh` at one grid point (moonpies.py:2536-2538): false for NaN. -/
noncomputable def inAgeMask (cfg : EjCfg) (c : DatedCrater) (p : Option ℝ × ℝ) : Bool :=
  match p.1 with
  | none => false
  | some lat => match gcDist c.lon c.lat p.2 lat 1737.4e3 with
    | none => false
    | some d => decide (d < c.rad * (if c.isbasin then cfg.basin_ej_threshold else cfg.ej_threshold))

/-- The loop of `get_age_grid` (moonpies.py:2533-2540) over craters already sorted. -/
noncomputable def ageLoop (cfg : EjCfg) (g : Arr2 (Option ℝ × ℝ)) :
    List DatedCrater → Arr2 ℝ → Except PyErr (Arr2 ℝ)
  | [], acc => .ok acc
  | c :: rest, acc => do
    let acc ← npWhere ⟨g.rows, g.cols, fun i j => inAgeMask cfg c (g.entry i j)⟩ c.age acc
    ageLoop cfg g rest acc

/-- `get_age_grid` (moonpies.py:2510-2542).  `sorted` is the table in the order chosen by
`sort_values("age", ascending=False)`; the sort is not stable, so any order with non-increasing
ages may be passed.  `ny, nx` are taken from the grids, but the array is made with shape
`(nx, ny)`. -/
noncomputable def getAgeGrid (cfg : EjCfg) (timestart : ℝ) (sorted : List DatedCrater)
    (ys xs : List ℝ) : Except PyErr (Arr2 ℝ) :=
  ageLoop cfg (gridLatLon ys xs cfg.rad_moon) sorted ⟨xs.length, ys.length, fun _ _ => timestart⟩

/-- The loop of `get_gc_dist_grid` (moonpies.py:2496-2505): the row label selects the slice. -/
noncomputable def gcDistLoop (cfg : EjCfg) (g : Arr2 (Option ℝ × ℝ)) :
    List DatedCrater → List (Arr2 (Option ℝ)) → Except PyErr (List (Arr2 (Option ℝ)))
  | [], acc => .ok acc
  | c :: rest, acc =>
    match acc[c.label]? with
    | none => .error .indexError
    | some old => do
      let a ← npAssign old.rows old.cols
        ⟨g.rows, g.cols, fun i j => gridDist cfg c.toCrater (g.entry i j).1 (g.entry i j).2⟩
      gcDistLoop cfg g rest (acc.set c.label a)

/-- `get_gc_dist_grid` (moonpies.py:2471-2507); slices have shape `(nx, ny)` and start at 0. -/
noncomputable def getGcDistGrid (cfg : EjCfg) (df : List DatedCrater) (ys xs : List ℝ) :
    Except PyErr (List (Arr2 (Option ℝ))) :=
  gcDistLoop cfg (gridLatLon ys xs cfg.rad_moon) df
    (List.replicate df.length ⟨xs.length, ys.length, fun _ _ => some 0⟩)

/-- `get_grid_outputs` (moonpies.py:2433-2468). -/
noncomputable def getGridOutputs (cfg : EjCfg) (timestart : ℝ) (df sorted : List DatedCrater)
    (ys xs : List ℝ) : Except PyErr (Arr2 ℝ × List (Arr2 Flt)) := do
  let ages ← getAgeGrid cfg timestart sorted ys xs
  let dists ← getGcDistGrid cfg df ys xs
  .ok (ages, List.zipWith (fun (c : DatedCrater) (a : Arr2 (Option ℝ)) =>
    ⟨a.rows, a.cols, fun i j => ejThickness cfg (a.entry i j) c.rad⟩) df dists)

end MoonPIES
