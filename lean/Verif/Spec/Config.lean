import Verif.Model.Config

/-!
# Specification of the run configuration

What `/repo/docs` and the comments of `config.py` promise, written out independently of the
construction steps.
-/

namespace MoonPIES.Spec

/-- Being an instance of a declared type (booleans count as integers). -/
inductive HasType : PyType → PyVal → Prop
  | bool (b : Bool) : HasType .bool (.bool b)
  | int (n : Int) : HasType .int (.int n)
  | intBool (b : Bool) : HasType .int (.bool b)
  | float (q : ℚ) : HasType .float (.float q)
  | inf (b : Bool) : HasType .float (.inf b)
  | nan : HasType .float .nan
  | str (s : Str) : HasType .str (.str s)
  | tuple (l : List Atom) : HasType .tuple (.tuple l)
  | dict (l : List (Str × List Atom)) : HasType .dict (.dict l)

/-- The options that depend on the mode or the pole, with their types. -/
def options : List (String × PyType) := [
  ("solar_wind_ice", .bool), ("ballistic_hop_moores", .bool), ("ejecta_basins", .bool),
  ("impact_ice_basins", .bool), ("impact_ice_comets", .bool), ("use_volc_dep_effcy", .bool),
  ("ballistic_sed", .bool), ("impact_gardening_costello", .bool), ("impact_speed_mean", .float),
  ("ballistic_hop_effcy", .float), ("volc_dep_effcy", .float), ("coldtrap_area_H2O", .float),
  ("coldtrap_area_CO2", .float), ("coldtrap_names", .tuple)]

/-- Switches of the two modes: all off in `cannon`, all on in `moonpies`. -/
def modeSwitches : List String := ["solar_wind_ice", "ballistic_hop_moores", "ejecta_basins",
  "impact_ice_basins", "impact_ice_comets", "use_volc_dep_effcy", "ballistic_sed",
  "impact_gardening_costello"]

/-- Numbers for the south pole. -/
def southValues : List (String × ℚ) := [("ballistic_hop_effcy", 54 / 1000),
  ("volc_dep_effcy", 26 / 100), ("coldtrap_area_H2O", 13 * 10 ^ 9), ("coldtrap_area_CO2", 104 * 10 ^ 6)]

/-- Numbers for the north pole. -/
def northValues : List (String × ℚ) := [("ballistic_hop_effcy", 27 / 1000),
  ("volc_dep_effcy", 15 / 100), ("coldtrap_area_H2O", 53 * 10 ^ 8), ("coldtrap_area_CO2", 0)]

/-- South pole cold traps. -/
def southNames : List String := ["Haworth", "Shoemaker", "Faustini", "Shackleton", "Slater",
  "Amundsen", "Cabeus", "Sverdrup", "de Gerlache", "Idel'son L", "Wiechert J", "Cabeus B"]

/-- North pole cold traps. -/
def northNames : List String := ["Fibiger", "Hermite", "Hermite A", "Hevesy", "Lovelace",
  "Nansen A", "Nansen F", "Rozhdestvenskiy U", "Rozhdestvenskiy W", "Sylvester"]

/-- The user did not set the option (passing `None` counts as not setting it). -/
def Omitted (kw : List (String × PyVal)) (p : String) : Prop :=
  p ∉ kw.map (·.1) ∨ (p, .none) ∈ kw

/-- Fields whose value is recomputed for each object: seed, clock and file locations. -/
def Recomputed (f : String) : Prop :=
  f = "seed" ∨ f = "run_date" ∨ f = "run_time" ∨ "_in".toList <:+ f.toList ∨
    "_out".toList <:+ f.toList ∨ "_path".toList <:+ f.toList

/-- What `int(v)` means for a seed. -/
inductive SeedInt (env : Env) : PyVal → Int → Prop
  | int (n : Int) : SeedInt env (.int n) n
  | true : SeedInt env (.bool true) 1
  | false : SeedInt env (.bool false) 0
  | float (q : ℚ) (n : Int) : |(n : ℚ)| ≤ |q| → |q| < |(n : ℚ)| + 1 → 0 ≤ q * n → SeedInt env (.float q) n
  | str (s : Str) (n : Int) : env.parseInt s = some n → SeedInt env (.str s) n

/-- Seed arguments that are not numbers. -/
inductive NotInt (env : Env) : PyVal → Prop
  | none : NotInt env .none
  | nan : NotInt env .nan
  | str (s : Str) : env.parseInt s = none → NotInt env (.str s)
  | tuple (l : List Atom) : NotInt env (.tuple l)
  | list (l : List Atom) : NotInt env (.list l)
  | dict (l : List (Str × List Atom)) : NotInt env (.dict l)

/-- The number a text of decimal digits stands for, read from left to right. -/
def readDigits (t : Str) : Nat := t.foldl (fun v c => 10 * v + (c.toNat - '0'.toNat)) 0

/-- `t` is the seed `n` written in decimal and padded with zeros to five characters: a minus sign
when `n` is negative, then digits `0`-`9` that read as `|n|`; never shorter than five characters,
and when longer, without leading zeros. -/
def SeedText (n : Int) (t : Str) : Prop :=
  ∃ ds : Str, t = (if n < 0 then ['-'] else []) ++ ds ∧ ds ≠ [] ∧ (∀ c ∈ ds, '0' ≤ c ∧ c ≤ '9') ∧
    readDigits ds = n.natAbs ∧ 5 ≤ t.length ∧ (5 < t.length → ds.head? ≠ some '0')

end MoonPIES.Spec
