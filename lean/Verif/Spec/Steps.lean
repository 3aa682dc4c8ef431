import Mathlib.Analysis.SpecialFunctions.Exp

/-!
# Counting impacts in timesteps
-/

namespace MoonPIES.Spec

open Real

/-- Craters per km² formed in the last `t` Gyr (Ivanov et al. 2008). -/
noncomputable def cratersSince (t : ℝ) : ℝ := 5.44e-14 * (exp (6.93 * t) - 1) + 8.38e-4 * t

/-- Craters per km² and Gyr today, the derivative of `cratersSince` at 0. -/
noncomputable def cratersToday : ℝ := 5.44e-14 * 6.93 + 8.38e-4

/-- Years at the rate of today that form as many craters as the last `T` years. -/
noncomputable def yearsAtToday (T : ℝ) : ℝ := cratersSince (T * 1e-9) / cratersToday * 1e9

/-- Sum of an exponential growing by `x` per step over its integral, when each step is given the value at its
older end. -/
noncomputable def overcount (x : ℝ) : ℝ := x / (1 - exp (-x))

/-- The same counted in steps of `dt` years. -/
noncomputable def yearsCounted (dt T : ℝ) : ℝ :=
  (5.44e-14 * (exp (6.93 * (T * 1e-9)) - 1) * overcount (6.93 * (dt * 1e-9)) + 8.38e-4 * (T * 1e-9)) /
    cratersToday * 1e9

end MoonPIES.Spec
