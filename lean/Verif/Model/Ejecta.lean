import Verif.Model.Basic
import Verif.Model.Geo
import Mathlib.Analysis.SpecialFunctions.Pow.Real
import Mathlib.Algebra.Order.Floor.Ring

/-!
# Ejecta thickness and distances to the cold traps

`/repo/moonpies/moonpies.py` 465-693, 1221-1253, 2247-2301, 2471-2507, over ℝ with the
NumPy error values kept apart: `Flt.nan` is NaN, `Flt.inf` an infinity (its sign is not
tracked), `Flt.fin x` a number.
-/

namespace MoonPIES

/-- A NumPy float result. -/
inductive Flt where
  | nan
  | inf
  | fin (x : ℝ)

/-- `a / b` on NumPy floats. -/
noncomputable def npDiv (a b : ℝ) : Flt :=
  if b = 0 then (if a = 0 then .nan else .inf) else .fin (a / b)

/-- `b ** e` / `np.power(b, e)` on NumPy floats: a negative base is NaN unless the
exponent is an integer; zero to a negative power is infinite. -/
noncomputable def npPow (b e : ℝ) : Flt :=
  if b < 0 then (if e = ⌊e⌋ then .fin (b ^ ⌊e⌋) else .nan)
  else if b = 0 ∧ e < 0 then .inf
  else .fin (b ^ e)

/-- `c * x` for a number `c`. -/
noncomputable def Flt.smul (c : ℝ) : Flt → Flt
  | .nan => .nan
  | .inf => if c = 0 then .nan else .inf
  | .fin x => .fin (c * x)

/-- `x * y`. -/
noncomputable def Flt.mul : Flt → Flt → Flt
  | .fin x, y => y.smul x
  | y, .fin x => y.smul x
  | .nan, _ => .nan
  | _, .nan => .nan
  | .inf, .inf => .inf

/-- `np.sqrt` of a NumPy float (`inf` is only reached from a positive quotient here). -/
noncomputable def Flt.sqrt : Flt → Flt
  | .nan => .nan
  | .inf => .inf
  | .fin x => if x < 0 then .nan else .fin (Real.sqrt x)

/-- `thick[np.isnan(thick)] = 0`. -/
noncomputable def Flt.nanToZero : Flt → Flt
  | .nan => .fin 0
  | x => x

/-- The configuration fields read by the functions of this file (config.py:135-155). -/
structure EjCfg where
  simple2complex : ℝ
  complex2peakring : ℝ
  rad_moon : ℝ
  grav_moon : ℝ
  impact_angle : ℝ
  ej_thickness_exp : ℝ
  ej_threshold : ℝ
  basin_ej_threshold : ℝ

/-- The module-level default `CFG` (config.py:135-155). -/
noncomputable def EjCfg.default : EjCfg :=
  { simple2complex := 18e3, complex2peakring := 1.4e5, rad_moon := 1737.4e3,
    grav_moon := 1.62, impact_angle := 45, ej_thickness_exp := -3, ej_threshold := 4,
    basin_ej_threshold := 5 }

/-- `f2t_melosh` (moonpies.py:2281-2294) with its default arguments, which is how it is
always called. -/
noncomputable def f2tMelosh (diam : ℝ) (simple : Bool) : ℝ :=
  let ds2c : ℝ := 18e3
  let gamma : ℝ := 1.25
  let eta : ℝ := 0.13
  if simple then diam / gamma
  else (1 / gamma) * (diam * ds2c ^ eta) ^ (1 / (1 + eta))

/-- `f2t_croft` (moonpies.py:2297-2301). -/
noncomputable def f2tCroft (diam : ℝ) : ℝ :=
  let ds2c : ℝ := 18.7e3
  let eta : ℝ := 0.18
  (diam * ds2c ^ eta) ^ (1 / (1 + eta))

/-- `final2transient` (moonpies.py:2247-2278) on one float: three masked assignments
into zeros. -/
noncomputable def final2transient (ds2c dc2pr diam : ℝ) : ℝ :=
  let t : ℝ := 0
  let t := if diam ≤ ds2c then f2tMelosh diam true else t
  let t := if ds2c < diam ∧ diam ≤ dc2pr then f2tMelosh diam false else t
  if dc2pr < diam then f2tCroft diam else t

/-- `ballistic_velocity` (moonpies.py:1221-1253) for one distance. -/
noncomputable def ballisticVelocity (dist g rp angle : ℝ) : Flt :=
  let theta := deg2rad angle
  let tan_phi := Real.tan (dist / (2 * rp))
  let num := g * rp * tan_phi
  let denom := (Real.sin theta * Real.cos theta) + (Real.cos theta ^ 2 * tan_phi)
  (npDiv num denom).sqrt

/-- `get_ej_thick_simple` (moonpies.py:563-588).  For `radius = 0` NumPy computes
`0 * (inf or NaN or 0)`, which is 0 or NaN and ends as 0 either way. -/
noncomputable def ejThickSimple (d r e : ℝ) : Flt :=
  if r = 0 then .nan else (npPow (d / r) e).smul (0.04 * r)

/-- `get_ej_thick_complex` (moonpies.py:591-615); radius 0 as above. -/
noncomputable def ejThickComplex (d r e : ℝ) : Flt :=
  if r = 0 then .nan else ((npPow r 0.74).smul 0.14).mul (npPow (d / r) e)

/-- `r_soi` (moonpies.py:653-656) of `get_ej_thick_basin`. -/
noncomputable def rSoi (r R R0 : ℝ) : Flt :=
  let tanr := Real.tan ((r - R) / (2 * R0))
  match npDiv (2 * R0 * tanr) (tanr + 1) with
  | .fin x => .fin (R + x)
  | y => y

/-- `s_spherical` (moonpies.py:662-666). -/
noncomputable def sSpherical (ri ro R0 : ℝ) : ℝ :=
  2 * Real.pi * R0 ^ 2 * (Real.cos (ri / R0) - Real.cos (ro / R0))

/-- `area_corr` (moonpies.py:668-676). -/
noncomputable def areaCorr (d R R0 : ℝ) : Flt :=
  let ri := d - R / 8
  let ro := d + R / 8
  match rSoi ri R R0, rSoi ro R R0 with
  | .fin a, .fin b => npDiv (Real.pi * (b ^ 2 - a ^ 2)) (sSpherical ri ro R0)
  | _, _ => .nan

/-- `get_ej_thick_basin` (moonpies.py:618-693).  Its `r_flat` calls `ballistic_velocity`
without passing the configuration, so gravity, radius and angle of the default
configuration enter there. -/
noncomputable def ejThickBasin (cfg : EjCfg) (dist tRadius : ℝ) : Flt :=
  let radius := tRadius * 1e-3
  let d := dist * 1e-3
  let R0 := cfg.rad_moon * 1e-3
  let grav := cfg.grav_moon * 1e-3
  let rt := d - radius
  match ballisticVelocity (rt * 1e3) EjCfg.default.grav_moon EjCfg.default.rad_moon
      EjCfg.default.impact_angle with
  | .fin v0 =>
    let v := v0 / 1e3
    let rflat := radius + (v ^ 2 * Real.sin (2 * deg2rad cfg.impact_angle)) / grav
    (((npPow (rflat / radius) cfg.ej_thickness_exp).smul (0.033 * radius)).mul
      (areaCorr d radius R0)).smul 1e3
  | _ => .nan

/-- `get_ejecta_thickness` (moonpies.py:515-560) for one distance (`none` = NaN) and one
radius: three masked assignments into zeros, then NaN to 0. -/
noncomputable def ejThickness (cfg : EjCfg) (dist : Option ℝ) (radius : ℝ) : Flt :=
  match dist with
  | none => .fin 0
  | some d =>
    let t : Flt := .fin 0
    let t := if radius < cfg.simple2complex / 2 then ejThickSimple d radius cfg.ej_thickness_exp
      else t
    let t := if cfg.simple2complex / 2 < radius ∧ radius < cfg.complex2peakring / 2 then
      ejThickComplex d radius cfg.ej_thickness_exp else t
    let t := if cfg.complex2peakring / 2 ≤ radius then
      ejThickBasin cfg d (final2transient cfg.simple2complex cfg.complex2peakring (radius * 2) / 2)
      else t
    t.nanToZero

/-- The crater columns read by `get_coldtrap_dists`. -/
structure Crater where
  cname : String
  lon : ℝ
  lat : ℝ
  rad : ℝ
  isbasin : Bool
  /-- `(psr_lat, psr_lon)`; `none` when one of them is NaN, as for every basin, whose table has
  no such columns (config.py:174-175) -/
  psr : Option (ℝ × ℝ)

/-- `src_rad < d < thr * src_rad` with `thr` replaced by infinity when negative
(moonpies.py:497-510): infinity times a positive radius is infinity, times 0 is NaN,
times a negative radius is minus infinity. -/
def inBlanket (srcRad thr d : ℝ) : Prop :=
  srcRad < d ∧ (if thr < 0 then 0 < srcRad else d < thr * srcRad)

open Classical in
/-- One element of `get_coldtrap_dists` (moonpies.py:501-511).  The trap's crater is
looked up by name; with no match the comparison of empty arrays is false, with two or
more matches the truth value of the array is ambiguous; a NaN distance fails the comparison.  `gc_dist` is called with its
default planet radius. -/
noncomputable def coldtrapDist (cfg : EjCfg) (df : List Crater) (row : Crater) (trap : String) :
    Except PyErr (Option ℝ) :=
  let thr := if row.isbasin then cfg.basin_ej_threshold else cfg.ej_threshold
  if row.cname = trap then .ok none
  else match df.filter (fun c => c.cname = trap) with
    | [] => .ok none
    | [t] =>
      match t.psr with
      | none => .ok none
      | some p => match gcDist row.lon row.lat p.2 p.1 1737.4e3 with
        | none => .ok none
        | some d =>
          let x := if inBlanket row.rad thr d then d else 0
          .ok (if x ≤ 0 then none else some x)
    | _ => .error .valueError

/-- `get_coldtrap_dists` (moonpies.py:465-512): rows are craters, columns traps.  Row `i`
of the array is the crater at position `i` (`df` has a fresh integer index). -/
noncomputable def coldtrapDists (cfg : EjCfg) (df : List Crater) (traps : List String) :
    Except PyErr (List (List (Option ℝ))) :=
  df.mapM (fun row => traps.mapM (fun trap => coldtrapDist cfg df row trap))

open Classical in
/-- One grid point of `get_gc_dist_grid` (moonpies.py:2495-2505); the latitude is NaN off
the disk and every comparison with NaN is false. -/
noncomputable def gridDist (cfg : EjCfg) (row : Crater) (lat : Option ℝ) (lon : ℝ) : Option ℝ :=
  match lat with
  | none => none
  | some lat =>
    match gcDist row.lon row.lat lon lat 1737.4e3 with
    | none => none
    | some d =>
      let thr := if row.isbasin then cfg.basin_ej_threshold else cfg.ej_threshold
      if d < row.rad then none
      else if thr * row.rad < d then none
      else some d

end MoonPIES
