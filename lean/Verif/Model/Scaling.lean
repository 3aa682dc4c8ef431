import Verif.Model.Ejecta
import Verif.Model.Interp
import Verif.Model.TimeArray

/-!
# Impactor sizes and size-frequency distributions

`/repo/moonpies/moonpies.py` 2139-2244, 2304-2414, 2834-2836, over ℝ.
-/

namespace MoonPIES

/-- `diam2vol` (moonpies.py:2834-2836). -/
noncomputable def diam2vol (d : ℝ) : ℝ := (4 / 3) * Real.pi * (d / 2) ^ 3

/-- Transient diameter of an impactor of length `L`: the tabulated forward law of
`diam2len_prieur` (moonpies.py:2331-2335). -/
noncomputable def prieurDiam (v rhoI rhoT g L : ℝ) : ℝ :=
  let mass := rhoI * diam2vol L
  let numer := 1.6 * (1.61 * g * L / v ^ 2) ^ (-0.22 : ℝ)
  let denom := (rhoT / mass) ^ (1 / 3 : ℝ)
  numer / denom

/-- The `(t_diams, i_lengths)` table of `diam2len_prieur` (moonpies.py:2329-2335). -/
noncomputable def prieurTable (v rhoI rhoT g first last : ℝ) : Except PyErr (List (ℝ × ℝ)) := do
  let ls ← linspace (first / 100) last 1000
  .ok (ls.map (fun L => (prieurDiam v rhoI rhoT g L, L)))

/-- `diam2len_prieur` (moonpies.py:2304-2340) on a tuple of transient diameters. -/
noncomputable def diam2lenPrieur (ts : List ℝ) (v rhoI rhoT g : ℝ) : Except PyErr (List ℝ) := do
  let first ← pyGet ts 0
  let last ← pyGet ts (ts.length - 1)
  let table ← prieurTable v rhoI rhoT g first last
  ts.mapM (fun t => match npInterp t table with
    | some y => .ok y
    | none => .error .valueError)

/-- `diam2len_collins` (moonpies.py:2343-2376). -/
noncomputable def diam2lenCollins (t v rhoI rhoT g theta : ℝ) : ℝ :=
  let cubeRootTheta := Real.sin (deg2rad theta) ^ (1 / 3 : ℝ)
  let denom := 1.161 * (rhoI / rhoT) ^ (1 / 3 : ℝ) * v ^ (0.44 : ℝ) * g ^ (-0.22 : ℝ) *
    cubeRootTheta
  (t / denom) ^ (1 / 0.78 : ℝ)

/-- `diam2len_johnson` (moonpies.py:2379-2414). -/
noncomputable def diam2lenJohnson (d v rhoI rhoT g theta ds2c : ℝ) : ℝ :=
  let sinTheta := Real.sin (deg2rad theta)
  let denom := 1.52 * (rhoI / rhoT) ^ (0.38 : ℝ) * v ^ (0.5 : ℝ) * g ^ (-0.25 : ℝ) *
    ds2c ^ (-0.13 : ℝ) * sinTheta ^ (0.38 : ℝ)
  (d / denom) ^ (1 / 0.88 : ℝ)

/-- The configuration fields read by `diam2len` (config.py:135-149). -/
structure ScaleCfg where
  impactor_density : ℝ
  target_density : ℝ
  grav_moon : ℝ
  impact_angle : ℝ
  simple2complex : ℝ
  complex2peakring : ℝ

/-- `diam2len` (moonpies.py:2188-2244) for the regimes scaled element by element, one
diameter and one speed.  Regime `c` goes through `diam2len_prieur` on the whole array. -/
noncomputable def diam2lenOne (cfg : ScaleCfg) (diam speed : ℝ) (regime : String) :
    Except PyErr ℝ :=
  let t := final2transient cfg.simple2complex cfg.complex2peakring diam
  if regime = "c" then
    (diam2lenPrieur [t] speed cfg.impactor_density cfg.target_density cfg.grav_moon).bind
      (fun l => pyGet l 0)
  else if regime = "d" then
    .ok (diam2lenCollins t speed cfg.impactor_density cfg.target_density cfg.grav_moon
      cfg.impact_angle)
  else if regime = "e" ∨ regime = "f" then
    .ok (diam2lenJohnson t speed cfg.impactor_density cfg.target_density cfg.grav_moon
      cfg.impact_angle cfg.simple2complex)
  else .error .valueError

/-- `diam2len` (moonpies.py:2188-2244) for an array of diameters and one speed. -/
noncomputable def diam2len (cfg : ScaleCfg) (diams : List ℝ) (speed : ℝ) (regime : String) :
    Except PyErr (List ℝ) :=
  if regime = "c" then
    diam2lenPrieur (diams.map (final2transient cfg.simple2complex cfg.complex2peakring)) speed
      cfg.impactor_density cfg.target_density cfg.grav_moon
  else diams.mapM (fun d => diam2lenOne cfg d speed regime)

/-! ## Size-frequency distribution -/

/-- `get_diam_array` (moonpies.py:2157-2160). -/
noncomputable def diamArray (dmin dmax step : ℝ) : Except PyErr (List ℝ) :=
  if step = 0 then .error .zeroDivisionError
  else linspace dmin dmax (pyInt ((dmax - dmin) / step) + 1)

/-- `get_sfd_prob` (moonpies.py:2149-2154). -/
noncomputable def sfdProb (ds : List ℝ) (slope : ℝ) : List ℝ :=
  let sfd := ds.map (fun d => d ^ slope)
  sfd.map (fun x => x / sfd.sum)

/-- `get_crater_sfd` (moonpies.py:2139-2146). -/
noncomputable def craterSfd (dmin dmax step slope : ℝ) : Except PyErr (List ℝ × List ℝ) := do
  let ds ← diamArray dmin dmax step
  .ok (ds, sfdProb ds slope)

end MoonPIES
