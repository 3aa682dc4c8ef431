import Verif.Model.Ice
import Verif.Model.Shipped
import Verif.Model.TimeArray

/-!
# The figure of ballistic hop efficiencies

`/repo/notebooks/figure_scripts/plot_figs.py` 980-1046 (`ballistic_hop`).
-/

namespace MoonPIES

/-- A point of the figure: name, latitude, height, drawn as data of Moores et al., label. -/
structure HopPoint where
  trap : String
  lat : ℝ
  height : ℝ
  moores : Bool
  label : Option String

/-- `zip(coldtraps, lats)` (plot_figs.py:988-992). -/
def hopTraps : List (String × ℚ) := [
  ("Haworth", 87.5), ("Shoemaker", 88), ("Faustini", 87.1), ("Amundsen", 84.4), ("Cabeus", 85.3),
  ("Cabeus B", 82.3), ("de Gerlache", 88.3), ("Idel'son L", 84), ("Sverdrup", 88.3),
  ("Shackleton", 89.6), ("Wiechert J", 85.2), ("Slater", 88.1)]

/-- `coldtraps_moores` (plot_figs.py:995-996). -/
def hopMoores : List String :=
  ["Haworth", "Shoemaker", "Faustini", "de Gerlache", "Sverdrup", "Shackleton", "Cabeus"]

/-- `np.polyfit(x, y, 1)`: slope and value at 0 of the solution of the normal equations, for
abscissae that are not all equal. -/
noncomputable def polyfit1 (pts : List (ℝ × ℝ)) : ℝ × ℝ :=
  let n : ℝ := pts.length
  let mx := (pts.map (·.1)).sum / n
  let my := (pts.map (·.2)).sum / n
  let a := (pts.map fun p => (p.1 - mx) * p.2).sum / (pts.map fun p => (p.1 - mx) * p.1).sum
  (a, my - a * mx)

/-- What the figure shows: points, the level of Cannon et al., the fit and its curve, and the
line from Cabeus B to Faustini. -/
structure HopFig where
  points : List HopPoint
  cannon : ℝ
  fit : ℝ × ℝ
  curve : List (ℝ × ℝ)
  line : List (ℝ × ℝ)

/-- The points (plot_figs.py:1002-1021): `KeyError` for a trap missing from the table. -/
noncomputable def hopPoints (bhops : PyDict ℝ) : Except PyErr (List HopPoint) :=
  hopTraps.mapM fun p => do
    let bhop ← bhops.get p.1
    .ok { trap := p.1, lat := (p.2 : ℝ), height := 100 * bhop, moores := hopMoores.contains p.1,
          label := if p.1 = "Haworth" then some "Moores et al. (2016)"
            else if p.1 = "Cabeus B" then some "This work" else none }

/-- `ballistic_hop` (plot_figs.py:980-1046). -/
noncomputable def hopFigure (bhops : PyDict ℝ) : Except PyErr HopFig := do
  let points ← hopPoints bhops
  let used := hopTraps.filter fun p => hopMoores.contains p.1
  let ys ← used.mapM fun p => (bhops.get p.1).map (100 * ·)
  let fit := polyfit1 ((used.map fun p => (p.2 : ℝ)).zip ys)
  let lat ← linspace (89.6 : ℝ) 85.6 10
  let cf ← ["Cabeus B", "Faustini"].mapM fun n => (bhops.get n).map (100 * ·)
  .ok { points := points, cannon := 5.4, fit := fit,
        curve := lat.map fun x => (x, fit.1 * x + fit.2), line := [82.3, 87.1].zip cf }

end MoonPIES
