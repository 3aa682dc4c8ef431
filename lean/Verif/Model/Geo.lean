import Mathlib.Analysis.SpecialFunctions.Complex.Arg
import Mathlib.Analysis.SpecialFunctions.Trigonometric.Inverse

/-!
# Positions on the sphere

`/repo/moonpies/moonpies.py` 2722-2789, over ℝ.
-/

namespace MoonPIES

/-- `np.deg2rad`. -/
noncomputable def deg2rad (x : ℝ) : ℝ := x * (Real.pi / 180)

/-- `np.rad2deg`. -/
noncomputable def rad2deg (x : ℝ) : ℝ := x * (180 / Real.pi)

/-- `np.arctan2(y, x)`: the angle of the point `(x, y)`, 0 at the origin. -/
noncomputable def arctan2 (y x : ℝ) : ℝ := Complex.arg ⟨x, y⟩

/-- `np.sqrt`: NaN (`none`) for negative arguments. -/
noncomputable def npSqrt (x : ℝ) : Option ℝ := if x < 0 then none else some (Real.sqrt x)

/-- The haversine argument `a` of `gc_dist` (moonpies.py:2783-2786), from degrees. -/
noncomputable def haversine (lon1 lat1 lon2 lat2 : ℝ) : ℝ :=
  let lon1 := deg2rad lon1
  let lat1 := deg2rad lat1
  let lon2 := deg2rad lon2
  let lat2 := deg2rad lat2
  let sin2_dlon := Real.sin ((lon2 - lon1) / 2) ^ 2
  let sin2_dlat := Real.sin ((lat2 - lat1) / 2) ^ 2
  sin2_dlat + Real.cos lat1 * Real.cos lat2 * sin2_dlon

/-- `gc_dist` (moonpies.py:2764-2789); `none` is NaN (a square root of a negative). -/
noncomputable def gcDist (lon1 lat1 lon2 lat2 rp : ℝ) : Option ℝ :=
  let a := haversine lon1 lat1 lon2 lat2
  match npSqrt a, npSqrt (1 - a) with
  | some s, some t => some (rp * (2 * arctan2 s t))
  | _, _ => none

/-- `latlon2xy` (moonpies.py:2722-2740). -/
noncomputable def latlon2xy (lat lon rp : ℝ) : ℝ × ℝ :=
  let lat := deg2rad lat
  let lon := deg2rad lon
  (rp * Real.cos lat * Real.sin lon, rp * Real.cos lat * Real.cos lon)

/-- `xy2latlon` (moonpies.py:2743-2761): the latitude is NaN off the disk. -/
noncomputable def xy2latlon (x y rp : ℝ) : Option ℝ × ℝ :=
  ((npSqrt (rp ^ 2 - x ^ 2 - y ^ 2)).map (fun z => rad2deg (-Real.arcsin (z / rp))),
    rad2deg (arctan2 x y))

end MoonPIES
