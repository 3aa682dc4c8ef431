import Verif.Model.Flux
import Verif.Model.Ejecta
import Verif.Model.AgesToTime
import Verif.Model.TimeArray
import Verif.Model.Rounding

/-!
# The figure of ejecta speed, thickness, energy and sedimentation depth

`ejecta_distance` (notebooks/figure_scripts/plot_figs.py:477-595) and `kinetic_energy`
(moonpies.py:1180-1182).  Legends, axis limits and colours by position are left out.
-/

namespace MoonPIES

/-- `kinetic_energy` (moonpies.py:1180-1182). -/
noncomputable def kineticEnergy (mass vel : Flt) : Flt := (mass.smul 0.5).mul (vel.mul vel)

/-- What the curves need of the configuration. -/
structure EjFigCfg where
  ej : EjCfg
  bulk_density : ℝ
  petro : Bool
  mixing_ratio_a : ℝ
  mixing_ratio_b : ℝ

/-- One point of the four panels. -/
structure EjPoint where
  vel : Flt
  thick : Flt
  ke : Flt
  depth : Flt

/-- The body of the loop over craters at one distance `x` in crater radii (plot_figs.py:527-534).
The mixing ratio is taken at `diam`, not at the distance. -/
noncomputable def ejFigPoint (c : EjFigCfg) (diam x : ℝ) : EjPoint :=
  let rad := diam / 2
  let dist := rad * x
  let thick := ejThickness c.ej (some dist) rad
  let vel := ballisticVelocity dist c.ej.grav_moon c.ej.rad_moon c.ej.impact_angle
  let mass := thick.smul c.bulk_density
  let ke := (kineticEnergy mass vel).smul (1 / 1e6)
  let depth := match mixingRatio c.petro c.mixing_ratio_a c.mixing_ratio_b (some diam) with
    | some mr => thick.smul mr
    | none => .nan
  ⟨vel, thick, ke, depth⟩

/-- `crater_diams` (plot_figs.py:486-497). -/
noncomputable def ejFigDiams : List (String × ℝ) :=
  [("Orientale", 0.94e6), ("Harpalus", 41.6e3), ("Ries Basin", 24e3), ("Shackleton", 20.9e3),
    ("Mosting C", 4.2e3), ("Meteor Crater", 1e3)]

/-- Terrestrial craters (plot_figs.py:522). -/
def isTerrestrial (crater : String) : Bool := crater = "Ries Basin" || crater = "Meteor Crater"

/-- `earth_cfg` (plot_figs.py:502-506). -/
noncomputable def earthCfg (c : EjFigCfg) : EjFigCfg :=
  { c with ej := { c.ej with grav_moon := 9.81, rad_moon := 6.371e6 }, bulk_density := 2700 }

/-- A curve: crater, line style solid or dashed, points, and whether it is drawn in the fourth
panel. -/
structure EjCurve where
  crater : String
  solid : Bool
  points : List (ℝ × EjPoint)
  inDepthPanel : Bool

/-- One crater of the figure (plot_figs.py:515-543). -/
noncomputable def ejCurve (c : EjFigCfg) (xs : List ℝ) (p : String × ℝ) : EjCurve :=
  let ccfg := if isTerrestrial p.1 then earthCfg c else c
  { crater := p.1
    solid := !(p.1 = "Shackleton" || p.1 = "Mosting C" || p.1 = "Meteor Crater")
    points := xs.map (fun x => (x, ejFigPoint ccfg p.2 x))
    inDepthPanel := !isTerrestrial p.1 }

/-- All curves (plot_figs.py:514-543). -/
noncomputable def ejFigure (c : EjFigCfg) : Except PyErr (List EjCurve) := do
  let xs ← linspace (1 : ℝ) 5 100
  .ok (ejFigDiams.map (ejCurve c xs))

/-- The energy marked "Bunte Breccia" (plot_figs.py:499, 545, 552): the energy of the point of
the curve nearest to `2 * diam`, rounded to hundreds. -/
noncomputable def bunteBreccia (c : EjFigCfg) (xs : List ℝ) (diam : ℝ) : Except PyErr Flt := do
  let i ← argmin (xs.map (fun x => |diam / 2 * x - diam * 2|))
  match xs[i]? with
  | none => .error .indexError
  | some x => match (ejFigPoint (earthCfg c) diam x).ke with
    | .fin k => .ok (.fin ((roundHalfEven (k / 100) : ℝ) * 100))
    | y => .ok y

end MoonPIES
