import Verif.Spec.Rename
import Verif.Lemmas.Traps

/-!
# Other names for cold traps too
-/

namespace MoonPIES.Spec

/-- A dictionary with its keys renamed. -/
def renameKeys {α : Type} (N : String → String) (x : PyDict α) : PyDict α := x.map (fun p => (N p.1, p.2))

/-- The configuration with its cold traps renamed. -/
def renameTraps (N : String → String) (c : RunCfg) : RunCfg := withTraps c (c.coldtrap_names.map N)

/-- The data of a run with all names changed, in the table of ballistic hops too. -/
def renameAll (N : String → String) (sort : CraterTable → CraterTable) (d : RunData) : RunData :=
  { renameData N sort d with hop := renameKeys N d.hop }

end MoonPIES.Spec
