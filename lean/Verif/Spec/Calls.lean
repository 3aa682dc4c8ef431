import Verif.Model.Calls

/-!
# Specification: which calls fit the parameters of a function
-/

namespace MoonPIES.Spec

variable {α : Type}

/-- The call gives at most one argument to each parameter, one to each without default, and nothing
else. -/
structure CallFits (ps : Sig) (pos : List α) (kw : List (String × α)) : Prop where
  few : pos.length ≤ ps.length
  once : (kw.map (·.1)).Nodup
  known : ∀ k ∈ kw.map (·.1), ∃ (i : Nat) (p : String × Bool), pos.length ≤ i ∧ ps[i]? = some p ∧ p.1 = k
  all : ∀ (i : Nat) p, pos.length ≤ i → ps[i]? = some p → p.2 = false → p.1 ∈ kw.map (·.1)

/-- `out` lists for each parameter the argument the call gives it. -/
def Received (ps : Sig) (pos : List α) (kw : List (String × α)) (out : List (String × Option α)) : Prop :=
  out.length = ps.length ∧ ∀ (i : Nat) p, ps[i]? = some p → ∃ o, out[i]? = some (p.1, o) ∧
    ∀ v, o = some v ↔ pos[i]? = some v ∨ (p.1, v) ∈ kw

end MoonPIES.Spec
