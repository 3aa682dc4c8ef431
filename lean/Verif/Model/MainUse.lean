import Verif.Model.Main
import Verif.Model.Shipped

/-!
# What `main` returns and how it is used

`format_save_outputs` returns its dictionary of stratigraphy tables (moonpies.py:2683), and `main` returns
that (moonpies.py:77).  Here are the programs in the repository that take the value apart: the example in
the documentation of `main` (moonpies.py:46-49),
`/repo/notebooks/figure_scripts/older_scripts/sensitivity_test.py`, and the acceptance test of
`/repo/test/test_moonpies.py` (493-571).
-/

namespace MoonPIES

variable {σ α : Type}

/-- The value returned by `main` (moonpies.py:77, 2683). -/
noncomputable def mainReturns (g : Gen σ) (c : RunCfg) (d : RunData) :
    Except RunErr (PyDict (List (StratRow ℝ))) := do
  let out ← runMain g c d
  .ok out.strat

/-- `a, b, c = d` for a dictionary: its keys are unpacked, and any other number raises `ValueError`. -/
def unpack3 (d : PyDict α) : Except PyErr (String × String × String) :=
  match d.map (·.1) with
  | [a, b, c] => .ok (a, b, c)
  | _ => .error .valueError

/-- A key written in a subscript. -/
inductive Subscript where
  | int (n : Int)
  | str (s : String)

/-- `d[k]` for a dictionary with names as keys. -/
def dictItem (d : PyDict α) : Subscript → Except PyErr α
  | .int _ => .error .keyError
  | .str s => d.get s

/-- `s[k]` for a string: only integers can be used. -/
def strItem (s : String) : Subscript → Except PyErr Char
  | .int n => match s.toList[(if n < 0 then n + s.length else n).toNat]? with
    | some ch => if n < -s.length then .error .indexError else .ok ch
    | none => .error .indexError
  | .str _ => .error .typeError

/-- The example of the documentation of `main` (moonpies.py:47-49): the last name is a string. -/
noncomputable def docExample (g : Gen σ) (c : RunCfg) (d : RunData) : Except RunErr Char := do
  let out ← mainReturns g c d
  let (_, _, strat) ← liftPy (unpack3 out)
  liftPy (strItem strat (.str "Faustini"))

/-- Both functions of sensitivity_test.py (lines 10-23 and 53-64) run `main` for some configurations and then
unpack the first result; nothing after that line is reached unless it unpacks. -/
noncomputable def sensTest (g : Gen σ) (d : RunData) (cfgs : List RunCfg) :
    Except RunErr (String × String × String) := do
  let out ← cfgs.mapM (fun c => mainReturns g c d)
  let first ← liftPy (pyGet out 0)
  liftPy (unpack3 first)

/-- The configurations of `sens_test_options` (sensitivity_test.py:11-18). -/
noncomputable def sensOptions : List RunCfg :=
  ["Head", "NK"].map (fun op => { RunCfg.default 7494 with volc_mode := op })

/-- The configurations of `sens_test_mode` (sensitivity_test.py:54-61). -/
noncomputable def sensModes : List RunCfg :=
  [true, false].map (fun state => { RunCfg.default 7494 with impact_gardening_costello := state })

/-! ## The acceptance test -/

/-- `m[i] = x` for a row of a 2D array. -/
def setRow (m : List (List ℝ)) (i : Nat) (x : ℝ) : Except PyErr (List (List ℝ)) :=
  if i < m.length then .ok (m.modify i (fun row => row.map (fun _ => x))) else .error .indexError

/-- The ejecta of the test (test_moonpies.py:521-525). -/
noncomputable def testEjecta (ntime ncraters : Nat) : Except PyErr (List (List ℝ)) := do
  let m := List.replicate ntime (List.replicate ncraters (0 : ℝ))
  let m ← setRow m 5 0.05
  let m ← setRow m 10 0.3
  let m ← setRow m 15 0.4
  setRow m 20 0.5

/-- `get_polar_ice` (moonpies.py:866-895) with `get_impact_ice` replaced by an array, which
`get_impact_ice_comet` then returns as well (moonpies.py:1638). -/
noncomputable def patchedPolarIce (c : RunCfg) (lum : List (ℝ × ℝ)) (imp time : List ℝ) :
    Except PyErr (List ℝ) := do
  let ice := if c.impact_ice_comets then addArr imp imp else imp
  let solar ← solarWindIce c.solar lum time
  .ok (addArr ice solar)

/-- `get_ice_cols_time` (moonpies.py:812-863) in the test. -/
noncomputable def patchedIceCols (c : RunCfg) (d : RunData) (imp time : List ℝ) :
    Except PyErr (List (List ℝ)) := do
  let polar ← patchedPolarIce c (readLuminosity d.lum) imp time
  let volc ← volcanicIce c.volc_mode c.ice c.head (fun x => (roundHalfEven x : ℝ)) d.sortNk
    RunCfg.rtol c.timestep time d.nk
  iceColsTime c.cols d.hop polar volc

/-- `main` (moonpies.py:24-77) with `get_ejecta_thickness_time` and `get_impact_ice` replaced
(test_moonpies.py:494-495, 526, 530): `ej` are the rows of the ejecta, with no sources.  Ballistic
sedimentation, which also calls the first of the two (moonpies.py:1301), is off in the test. -/
noncomputable def patchedMain (g : Gen σ) (c : RunCfg) (d : RunData) (ej : List (List ℝ)) (imp : List ℝ) :
    Except RunErr CsvOut := do
  let s := g.init c.seed
  let time ← liftPy (getTimeArray c.timestart c.timeend c.timestep)
  let (df, _) ← liftPy (craterBasinList g c d s)
  let dists ← liftPy (coldtrapDists c.ej (df.map (·.rest.crater)) c.coldtrap_names)
  let ice ← liftPy (patchedIceCols c d imp time)
  let ejs := (List.range c.coldtrap_names.length).map
    (fun i => (column ej i, (column ej i).map (fun _ => "")))
  let cols ← liftPy (buildCols ice ejs 0 c.coldtrap_names [])
  let (bd, bf) ← liftPy (bsedArrays c d time df dists [])
  let cols ← liftPy (updateStratCols id ejShield c.impact_gardening_costello c.coldtrap_names
    cols (overturnDepth c.overturn time) bd bf)
  liftPy (formatCsv c d time df cols)

/-- The run of the test (test_moonpies.py:516-532). -/
noncomputable def acceptanceRun (g : Gen σ) (c : RunCfg) (d : RunData) : Except RunErr CsvOut := do
  let time ← liftPy (getTimeArray c.timestart c.timeend c.timestep)
  let ej ← liftPy (testEjecta time.length c.coldtrap_names.length)
  let thick ← liftPy (iceThickness c.ice 1e15)
  patchedMain g c d ej (time.map (fun _ => 1 * thick))

/-- The test as written takes `out[1]` (test_moonpies.py:532-533). -/
noncomputable def acceptanceTest (g : Gen σ) (c : RunCfg) (d : RunData) :
    Except RunErr (List (StratRow ℝ)) := do
  let out ← acceptanceRun g c d
  liftPy (dictItem out.strat (.int 1))

/-- What the test expects of the ice column of Haworth, read off the raw ice columns instead
(test_moonpies.py:535-571). -/
noncomputable def acceptanceValues : List (Nat × ℝ) :=
  [(0, 4.3474), (4, 4.3474), (5, 4.3474), (6, 4.3474), (9, 4.3474), (10, 4.3474), (11, 4.3474),
   (14, 4.3474), (15, 4.3474), (16, 4.3474), (19, 4.3474), (20, 4.4474), (21, 4.3474), (24, 4.3474),
   (25, 4.3574), (26, 4.3574), (124, 4.3574), (125, 4.3507), (126, 4.3507), (224, 4.3507),
   (225, 4.3474), (226, 4.3474)]

end MoonPIES
