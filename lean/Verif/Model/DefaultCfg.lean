import Verif.Model.Config

/-!
# The file of default options

`/repo/moonpies/config.py` 451-466 (`make_default_cfg`).  What is modelled is the dictionary that
is printed to the file; for the text and how it is read see `Model/PyText` (C95).
-/

namespace MoonPIES

/-- `del d[k]`. -/
def pyDel {α : Type} : PyDict α → String → Except PyErr (PyDict α)
  | [], _ => .error .keyError
  | (k', v) :: rest, k => if k' = k then .ok rest else (pyDel rest k).map ((k', v) :: ·)

/-- Several deletions, one after the other. -/
def pyDelAll {α : Type} : PyDict α → List String → Except PyErr (PyDict α)
  | d, [] => .ok d
  | d, k :: ks => match pyDel d k with
    | .error e => .error e
    | .ok d' => pyDelAll d' ks

/-- One pass of the loop over the entries (config.py:461-465); `basename` of a value that is not a
string raises `TypeError`. -/
def defaultEntry (kv : String × PyVal) : Except PyErr (String × PyVal) :=
  if "path".toList <:+: kv.1.toList then .ok (kv.1, .str [])
  else if "_in".toList.isSuffixOf kv.1.toList || "_out".toList.isSuffixOf kv.1.toList then
    match kv.2 with
    | .str s => .ok (kv.1, .str (baseName s))
    | _ => .error .typeError
  else .ok kv

/-- The dictionary `make_default_cfg` writes (config.py:451-466). -/
def makeDefaultCfg (env : Env) : Except PyErr (List (String × PyVal)) := do
  let c ← makeCfg env []
  let d ← pyDelAll (toDict c) (["seed", "run_time", "run_date"] ++ modeMoonpies.map (·.1))
  d.mapM defaultEntry

end MoonPIES
