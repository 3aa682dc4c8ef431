import Mathlib.Analysis.SpecialFunctions.Log.Base
import Mathlib.Analysis.SpecialFunctions.Pow.Real
import Verif.Model.Rounding

/-!
# The ice sources of Cannon et al. (2020), as given by the test suite

`/repo/test/test_moonpies.py` 14-273: the formulas of the supplements ds01 and ds02 with their numbers.
Nothing of the configuration is read.
-/

namespace MoonPIES.Spec

open Real

/-- Flux ratio (test_moonpies.py:41-45); `t` in years. -/
noncomputable def refFlux (t : ℝ) : ℝ :=
  (3.76992e-13 * exp (6.93 * (t * 1e-9)) + 8.38e-4) / (3.76992e-13 * exp (6.93 * 0) + 8.38e-4)

/-- Micrometeorites (test_moonpies.py:64-68). -/
noncomputable def refMicro (t : ℝ) : ℝ := 1e6 * 1e7 * 0.1 * refFlux t * 0.165

/-- Impactors of Brown et al. in a timestep (test_moonpies.py:79-86). -/
noncomputable def refBrown (lo hi : ℝ) : ℝ :=
  (10 ^ (1.568 - 2.7 * logb 10 lo) - 10 ^ (1.568 - 2.7 * logb 10 hi)) * 1e7 / 22.5

/-- Mass of a sphere (test_moonpies.py:108). -/
noncomputable def refMass (d : ℝ) : ℝ := 1300 * (4 / 3) * π * (d / 2) ^ 3

/-- Ice of impactors with lengths `ls` whose sizes `ds` have a power law, `num` in all
(test_moonpies.py:104-112, 127-130, 145-150). -/
noncomputable def refPowerIce (slope num : ℝ) (ds ls : List ℝ) : ℝ :=
  (List.zipWith (fun l d => refMass l * (d ^ slope * (num / (ds.map fun d => d ^ slope).sum))) ls ds).sum *
    0.36 * (2 / 3) * 0.1 * 0.165

/-- Water retained (test_moonpies.py:164-169); `v` in km/s. -/
noncomputable def refKept (v : ℝ) : ℝ :=
  let w := if v < 10 then 0.5 else 36.26 * exp (-0.3464 * v)
  if w < 0 then 0 else w

/-- Ice of single craters (test_moonpies.py:159-175): lengths and speeds [m/s] of the impactors. -/
noncomputable def refLarge (ls vs : List ℝ) : ℝ :=
  (List.zipWith (fun l v => refMass l * refKept (v * 1e-3) * 0.1) ls vs).sum

/-- Ice thickness (test_moonpies.py:243-247, 257-268). -/
noncomputable def refThickness (m : ℝ) : ℝ := m * 0.054 / 934 / (1.30e4 * 1000 * 1000)

/-- Volcanic ice (test_moonpies.py:17-29): ages rounded to 0.01 Gyr. -/
noncomputable def refVolcanic (t : ℝ) : ℝ :=
  let age := (roundHalfEven (t / 1e7) : ℝ) / 100
  if age > 2.00 ∧ age < 4.01 then
    if age > 3.00 then 1e7 * 0.75 * 3000 * 1000 ^ 3 * (10 / 1e6) * (1e7 / 1e9)
    else 1e7 * 0.25 * 3000 * 1000 ^ 3 * (10 / 1e6) * (1e7 / 1e9)
  else 0

end MoonPIES.Spec
