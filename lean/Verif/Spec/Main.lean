import Verif.Spec.Impact
import Verif.Props.Dists
import Verif.Props.Melt
import Verif.Spec.Bsed

/-!
# Specification vocabulary for complete runs
-/

namespace MoonPIES

open Real InnerProductGeometry

/-- Spec: distance along the surface from a listed crater to a place, on a sphere of the default
lunar radius. -/
noncomputable def listedDist (r : RawCrater) (p : ℝ × ℝ) : ℝ :=
  1737400 * angle (direction r.lat r.lon) (direction p.1 p.2)

/-- Inputs on which no step of a run can fail: at least two model times; usable error bars and
diameters; each cold trap listed exactly once and older than half a timestep; no cold trap
antipodal to a peak-ring basin; the melt table, when used, complete and covering all distances. -/
structure Runnable (c : RunCfg) (d : RunData) : Prop where
  names : c.coldtrap_names ≠ []
  nodup : c.coldtrap_names.Nodup
  start : c.timestep < c.timestart
  span : 2 * c.timestep ≤ c.timestart - c.timeend
  bars : ∀ r ∈ d.craters ++ d.basins, 0 ≤ r.age_low ∧ 0 ≤ r.age_upp ∧ 0 < r.age_low + r.age_upp
  diam : ∀ r ∈ d.craters ++ d.basins, 0 < r.diam
  once : ∀ n ∈ c.coldtrap_names, ((d.craters ++ d.basins).map (·.cname)).count n = 1
  old : ∀ r ∈ d.craters ++ d.basins, r.cname ∈ c.coldtrap_names →
    c.timestep / 2 < (r.age - r.age_low) * 1e9
  s2c : 18000 ≤ c.simple2complex
  c2pr : 18700 ≤ c.complex2peakring
  angle90 : c.impact_angle < 90
  peak : ∀ r ∈ d.craters ++ d.basins, c.complex2peakring ≤ r.diam * 1000 →
    r.diam * 1000 / 2 ≤ c.rad_moon ∧
    ∀ t ∈ d.craters ++ d.basins, t.cname ∈ c.coldtrap_names → ∀ p, t.psr = some p →
      listedDist r p < π * 1737400 ∧ listedDist r p < π * c.rad_moon
  covers : c.ballistic_sed = true → d.melt.Complete ∧ d.melt.rows ≠ [] ∧ d.melt.temps ≠ [] ∧
    ∀ dist m, 0 < dist → dist ≤ π * 1737400 →
      mixingRatio c.mixing_ratio_petro c.mixing_ratio_a c.mixing_ratio_b (some dist) = some m →
      ∀ b t, Spec.EjectaTemperature c.bsed b t → ∃ m0 m1 t0 t1, InBlock d.melt m t m0 m1 t0 t1

end MoonPIES
