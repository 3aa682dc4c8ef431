import Verif.Model.TimeFl
import Verif.Model.Random
import Verif.Model.Float

/-!
# Counting impacts in rounded arithmetic

`/repo/moonpies/moonpies.py` 1958-2008 (`get_random_hydrated_craters`, `get_random_hydrated_basins`), 2157-2160
(`get_diam_array`) and 2793-2814 (`probabilistic_round`) with the roundings: `fd` is the rounding to double
precision and `fs` the rounding to `cfg.dtype`.  The uniform draws of `rng.random` are the multiples of `2⁻⁵³`
below 1, each as likely as any other (numpy takes 53 random bits).
-/

namespace MoonPIES

variable {K : Type} [Field K] [LinearOrder K] [FloorRing K]

/-- The `k`-th of the values of `rng.random()`. -/
def uniformDouble (k : Nat) : K := (k : K) / 2 ^ 53

/-- `probabilistic_round` (moonpies.py:2793-2814) on one value: the sum is a double. -/
def probRoundFl (fd : K → K) (x u : K) : Int := ⌊fd (x + u)⌋

/-- `get_diam_array` (moonpies.py:2157-2160); the settings are doubles. -/
def diamArrayFl (fd fs : K → K) (dmin dmax step : K) : Except PyErr (List K) :=
  if step = 0 then .error .zeroDivisionError
  else linspaceFl fd fs dmin dmax (pyInt (fd (fd (dmax - dmin) / step)) + 1)

/-- `hydration_prob` of asteroids (moonpies.py:1972-1980, 1998-2003). -/
def hydProbFl (fd : K → K) (c : ImpCfg K) : K :=
  if c.comets then fd (fd (fd (1 - c.cometFrac) * c.ctypeFrac) * c.ctypeHyd)
  else fd (c.ctypeFrac * c.ctypeHyd)

/-- `get_random_hydrated_craters` (moonpies.py:1958-1981). -/
def hydratedCratersFl (fd : K → K) (c : ImpCfg K) (u : List K) : List Bool :=
  u.map (fun x => decide (x < if c.isComet then c.cometFrac else hydProbFl fd c))

/-- `get_random_hydrated_basins` (moonpies.py:1984-2008): asteroids and comets. -/
def hydratedBasinsFl (fd : K → K) (c : ImpCfg K) (u : List K) : List Bool × List Bool :=
  (u.map (fun x => decide (x < hydProbFl fd c)), u.map (fun x => decide (fd (1 - c.cometFrac) < x)))

end MoonPIES
