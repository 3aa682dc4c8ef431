import Verif.Model.Main
import Verif.Props.EjectaTime

/-!
# Other names for craters and basins
-/

namespace MoonPIES.Spec

/-- A listed crater or basin by another name. -/
def renameRaw (N : String → String) (r : RawCrater) : RawCrater := { r with cname := N r.cname }

/-- The same for a crater of a run. -/
def renameCrater (N : String → String) (c : Crater) : Crater := { c with cname := N c.cname }

/-- The same for a dated crater. -/
def renameRow (N : String → String) (r : CraterAge ℝ CraterCols) : CraterAge ℝ CraterCols :=
  { r with rest := { r.rest with crater := renameCrater N r.rest.crater } }

/-- The data of a run with all names changed; `sort` is the sort by age on the renamed table. -/
def renameData (N : String → String) (sort : CraterTable → CraterTable) (d : RunData) : RunData :=
  { d with craters := d.craters.map (renameRaw N), basins := d.basins.map (renameRaw N), sortAges := sort }

/-- The cold traps keep their names, and nothing else is named like one. -/
def KeepsTraps (N : String → String) (names : List String) : Prop := ∀ t ∈ names, ∀ n, N n = t ↔ n = t

/-- A name that cannot be mistaken: not empty, without commas, and none of the three labels that
the tables give to layers by themselves. -/
def PlainName (s : String) : Prop :=
  s ≠ "" ∧ ',' ∉ s.toList ∧ s ≠ "Ice" ∧ s ≠ "Minor source(s)" ∧ s ≠ "Formation age"

/-- The label of a layer with the craters in it renamed. -/
def renameLabel (N : String → String) (s : String) : String :=
  if s = "" ∨ s = "Ice" ∨ s = "Minor source(s)" ∨ s = "Formation age" then s
  else joinComma ((splitComma s.toList).map (fun w => N (String.ofList w)))

/-- A row of a table with its label changed. -/
def relabel {K : Type} (F : String → String) (r : StratRow K) : StratRow K := { r with label := F r.label }

end MoonPIES.Spec
