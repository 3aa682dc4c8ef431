import Verif.Spec.Config

/-!
# What may be given for a field of the configuration
-/

namespace MoonPIES.Spec

/-- Values a field of a declared type takes without losing anything: instances of the type, a
float with an integer value for an integer field, an integer in the float range for a float. -/
inductive Fits : PyType → PyVal → Prop
  | has {ty : PyType} {v : PyVal} : HasType ty v → Fits ty v
  | whole (n : Int) : Fits .int (.float n)
  | float (n : Int) : n.natAbs < 2 ^ 1024 → Fits .float (.int n)

/-- `a == b`: the same value, or the same number as integer and as float. -/
inductive SameValue : PyVal → PyVal → Prop
  | refl (v : PyVal) : SameValue v v
  | whole (n : Int) : SameValue (.int n) (.float n)
  | float (n : Int) : SameValue (.float n) (.int n)

/-- Keyword arguments that a user may sensibly pass: known fields, once each, with fitting values
(or `None` for an option), a known mode and a known pole. -/
structure GoodArgs (kw : List (String × PyVal)) : Prop where
  nodup : (kw.map (·.1)).Nodup
  fits : ∀ kv ∈ kw, ∃ d ∈ cfgFields, d.name = kv.1 ∧
    (Fits d.type kv.2 ∨ (kv.2 = .none ∧ kv.1 ∈ options.map (·.1)))
  mode : ∀ v, ("mode", v) ∈ kw → v = .str "cannon".toList ∨ v = .str "moonpies".toList
  pole : ∀ v, ("pole", v) ∈ kw → v = .str "s".toList ∨ v = .str "n".toList

end MoonPIES.Spec
