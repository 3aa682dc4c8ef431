import Verif.Model.Main

/-!
# The part of a run after the craters are dated

`/repo/moonpies/moonpies.py` 60-77: what `main` does with the table of craters and basins.
-/

namespace MoonPIES

variable {σ : Type}

/-- `main` from the table of dated craters on (moonpies.py:60-77); `s` is the state of the random generator
after the ages were drawn. -/
noncomputable def runFrom (g : Gen σ) (c : RunCfg) (d : RunData) (time : List ℝ) (df : CraterTable) (s : σ) :
    Except RunErr CsvOut := do
  let dists ← liftPy (coldtrapDists c.ej (df.map (·.rest.crater)) c.coldtrap_names)
  let thick ← thicknessMatrix c df dists
  let (cols, _) ← liftPy (initStratCols g c d time df thick s)
  let (bd, bf) ← liftPy (bsedArrays c d time df dists thick)
  let cols ← liftPy (updateStratCols id ejShield c.impact_gardening_costello c.coldtrap_names
    cols (overturnDepth c.overturn time) bd bf)
  liftPy (formatCsv c d time df cols)

end MoonPIES
