import Verif.Model.Files

/-!
# Looking for the tables of a run

How `plot_stratigraphy` (`/repo/moonpies/plotting.py` 56-107) gets from the output directory it is given, as
`/repo/docs/quickstart.md` 36-43 recommends, to the tables it draws.  What is drawn of them is in
`Model/StratFig.lean`.
-/

namespace MoonPIES

/-- The names that `pathlib.Path(p)` keeps of an absolute path: all but empty ones and `.`. -/
def pathNames (p : Str) : List Str := (splitSlash p).filter (fun s => decide (s ≠ [] ∧ s ≠ ['.']))

/-- `a / b` of `pathlib`: an absolute `b` replaces `a`. -/
def pathDiv (a : List Str) (b : Str) : List Str :=
  if b.head? = some '/' then pathNames b else a ++ pathNames b

/-- `date_path = Path(cfg.out_path).parents[1]` (plotting.py:68). -/
def datePath (p : Str) : Except PyErr (List Str) :=
  if (pathNames p).length < 2 then .error .indexError
  else .ok ((pathNames p).take ((pathNames p).length - 2))

/-- `next(Path(out_path).rglob('config*.py'))` and `read_custom_cfg` of it (plotting.py:63-67); `found` are the
dictionaries in the files that `rglob` finds, in its order. -/
def plotCfg (env : Env) (found : List (List (String × PyVal))) : Except PyErr CfgVals :=
  match found with
  | [] => .error .osError
  | d :: _ => readCustomCfg env (some d) none

/-- Location of the table of a cold trap with the default `runs` and `seeds` (plotting.py:70-73, 98, 103-105). -/
def stratFile (c : CfgVals) (trap : Str) : Except PyErr Loc := do
  let date ← datePath (strVal (c "out_path"))
  let rpath := pathDiv date (strVal (c "run_name"))
  let spath := pathDiv rpath (fmtSeed (intVal (c "seed")))
  .ok (pathDiv spath ("strat_".toList ++ trap ++ ".csv".toList))

end MoonPIES
