import Mathlib.Analysis.SpecialFunctions.Pow.Real

/-!
# Ice retained in an impact

`/repo/moonpies/moonpies.py` 1876-1894 (`ice_retention_factor`), over ℝ.
-/

namespace MoonPIES

/-- `ice_retention_factor` (moonpies.py:1876-1894) for one speed in m/s.  The masked
array assignments are applied in the order of the code. -/
noncomputable def iceRetention (mode : String) (isComet : Bool) (speed : ℝ) : ℝ :=
  let s := speed * 1e-3
  let r : ℝ := 1
  let r := if mode = "cannon" then
      (if 10 ≤ s then 36.26 * Real.exp (-0.3464 * s) else r)
    else if mode = "moonpies" then
      (if 10 ≤ s then 1.66e4 * s ^ (-4.16 : ℝ) else r)
    else r
  let r := if isComet = false then (if s < 10 then 0.5 else r) else r
  if r < 0 then 0 else r

end MoonPIES
