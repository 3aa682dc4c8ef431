import Verif.Props.Dists
import Verif.Model.Main

/-!
# Moving all places on the Moon
-/

namespace MoonPIES.Spec

/-- The angle between two places, given by latitude and longitude, seen from the centre of the Moon. -/
noncomputable def placeAngle (p q : ℝ × ℝ) : ℝ :=
  InnerProductGeometry.angle (direction p.1 p.2) (direction q.1 q.2)

/-- The move `P` of latitudes and longitudes keeps all distances. -/
def KeepsDistances (P : ℝ × ℝ → ℝ × ℝ) : Prop := ∀ p q, placeAngle (P p) (P q) = placeAngle p q

/-- A listed crater or basin with its centre and its shadowed region moved. -/
def moveRaw (P : ℝ × ℝ → ℝ × ℝ) (r : RawCrater) : RawCrater :=
  { r with lat := (P (r.lat, r.lon)).1, lon := (P (r.lat, r.lon)).2, psr := r.psr.map P }

/-- The same for a crater of a run. -/
def moveCrater (P : ℝ × ℝ → ℝ × ℝ) (c : Crater) : Crater :=
  { c with lat := (P (c.lat, c.lon)).1, lon := (P (c.lat, c.lon)).2, psr := c.psr.map P }

/-- The same for a dated crater. -/
def moveRow (P : ℝ × ℝ → ℝ × ℝ) (r : CraterAge ℝ CraterCols) : CraterAge ℝ CraterCols :=
  { r with rest := { r.rest with crater := moveCrater P r.rest.crater } }

/-- The data of a run with all places moved; `sort` is the sort by age on the moved table. -/
def moveData (P : ℝ × ℝ → ℝ × ℝ) (sort : CraterTable → CraterTable) (d : RunData) : RunData :=
  { d with craters := d.craters.map (moveRaw P), basins := d.basins.map (moveRaw P), sortAges := sort }

end MoonPIES.Spec
