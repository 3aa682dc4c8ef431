import Verif.Model.Config

/-!
# Specification for edited configuration files
-/

namespace MoonPIES.Spec

/-- A file after the user has changed or added some entries. -/
def edited (file : List (String × PyVal)) (changes : List (String × PyVal)) :
    List (String × PyVal) :=
  changes.foldl (fun d kv => PyDict.set d kv.1 kv.2) file

/-- Options whose default depends on the pole. -/
def poleOptions : List String :=
  ["ballistic_hop_effcy", "volc_dep_effcy", "coldtrap_area_H2O", "coldtrap_area_CO2",
    "coldtrap_names"]

end MoonPIES.Spec
