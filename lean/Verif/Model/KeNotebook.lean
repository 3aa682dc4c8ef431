import Verif.Model.EjectaFig
import Verif.Model.TimeArray

/-!
# Speeds and kinetic energies of the first notebook

`/repo/notebooks/ballistic_kinetic_energy.ipynb`, cells 1-4: functions, arrays, printed examples and
the panel of kinetic energy.
-/

namespace MoonPIES

/-- `G_MOON` (cell 1). -/
noncomputable def nbG : ℝ := 1.624
/-- `R_MOON` (cell 1). -/
noncomputable def nbR : ℝ := 1737 * 1e3

/-- `ballistic_planar` (cell 1), angle in radians. -/
noncomputable def ballisticPlanar (theta d g : ℝ) : Flt := (npDiv (d * g) (Real.sin (2 * theta))).sqrt

/-- `ballistic_spherical` (cell 1), angle in radians. -/
noncomputable def ballisticSpherical (theta d g rp : ℝ) : Flt :=
  let tan_phi := Real.tan (d / (2 * rp))
  (npDiv (g * rp * tan_phi)
    (Real.sin theta * Real.cos theta + Real.cos theta ^ 2 * tan_phi)).sqrt

/-- `mps2kmph` (cell 1). -/
noncomputable def mps2kmph (v : Flt) : Flt := (v.smul 3600).smul (1 / 1000)

/-- `thickness` (cell 1). -/
noncomputable def nbThickness (d R : ℝ) : Flt :=
  if R = 0 then .nan else (npPow (d / R) (-3)).smul (0.14 * R ^ (0.74 : ℝ))

/-- `thick2mass` (cell 1). -/
noncomputable def thick2mass (thick : Flt) : Flt := thick.smul 1500

/-- `mps2KE` (cell 1). -/
noncomputable def mps2KE (v m : Flt) : Flt := (m.smul 0.5).mul (v.mul v)

/-- `theta` (cell 2). -/
noncomputable def nbTheta : ℝ := deg2rad 45

/-- `d` (cell 2): `np.arange(10, 450) * 1000.`. -/
noncomputable def nbDist : List ℝ := (List.range 440).map fun i => ((10 + i : ℕ) : ℝ) * 1000

/-- `v_planar` (cell 2). -/
noncomputable def nbPlanar : List Flt := nbDist.map fun d => mps2kmph (ballisticPlanar nbTheta d nbG)
/-- `v_spherical` (cell 2). -/
noncomputable def nbSpherical : List Flt :=
  nbDist.map fun d => mps2kmph (ballisticSpherical nbTheta d nbG nbR)

/-- One curve of the panel of kinetic energy (cells 2 and 4): abscissae in crater radii and energies for a
crater of radius `R`.  The speeds are those at `d`, the thickness is that at `linspace(R, 4 R)`. -/
noncomputable def nbEnergy (R : ℝ) : Except PyErr (List (ℝ × Flt)) := do
  let x ← linspace (1 * R) (4 * R) 440
  .ok (List.zipWith (fun d y => (y / R,
    mps2KE (ballisticSpherical nbTheta d nbG nbR) (thick2mass (nbThickness y R)))) nbDist x)

/-- The examples printed in cell 3: distances in km and speeds. -/
noncomputable def nbPrinted : Except PyErr (List (ℝ × Flt) × List (ℝ × Flt)) := do
  let km := nbDist.map (· / 1000)
  let planar ← [28, 40].mapM fun i => do
    let d ← pyGet km i
    let v ← pyGet nbPlanar i
    .ok (d, v)
  let spherical ← [400, 435].mapM fun i => do
    let d ← pyGet km i
    let v ← pyGet nbSpherical i
    .ok (d, v)
  .ok (planar, spherical)

end MoonPIES
