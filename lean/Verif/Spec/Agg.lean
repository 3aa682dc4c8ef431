import Verif.Model.Plot

/-!
# Specifications for the aggregated tables
-/

namespace MoonPIES.Spec

variable {K : Type}

/-- The layers of some files, one after the other, each as its ice, depth and time. -/
def layersOf (files : List (List (AggRow K))) : List (K × K × K) :=
  files.flatten.map (fun r => (r.ice, r.depth, r.time))

/-- `old` is the name at some position of `names` and `new` the one at that position of `news`. -/
def RenamedTo (names news : List String) (old new : String) : Prop :=
  ∃ i : Nat, names[i]? = some old ∧ news[i]? = some new

end MoonPIES.Spec
