import Verif.Model.Strat
import Mathlib.Data.List.Chain

/-!
# Specifications for the stratigraphy table
-/

namespace MoonPIES.Spec

/-- `bs` cuts `rows` into its maximal blocks of consecutive rows with one label. -/
structure Blocks {α : Type} (lab : α → String) (rows : List α) (bs : List (List α)) : Prop where
  flatten : bs.flatten = rows
  nonempty : ∀ b ∈ bs, b ≠ []
  const : ∀ b ∈ bs, ∀ r ∈ b, ∀ r' ∈ b, lab r = lab r'
  differ : bs.IsChain (fun b b' => ∀ r ∈ b, ∀ r' ∈ b', lab r ≠ lab r')

variable {K : Type} [Field K] [LinearOrder K]

/-- `o` summarises block `b`: total ice and ejecta, label and time of the last row. -/
def Summary (b : List (Row K)) (o : Row K) : Prop :=
  o.ice = (b.map (·.ice)).sum ∧ o.ejecta = (b.map (·.ejecta)).sum ∧
    ∃ l, b.getLast? = some l ∧ o.label = l.label ∧ o.time = l.time

/-- `out` is `rows` with adjacent rows of equal label merged. -/
def IsMerge (rows out : List (Row K)) : Prop :=
  ∃ bs, Blocks (·.label) rows bs ∧ List.Forall₂ Summary bs out

/-- Remove consecutive repeats. -/
def collapse : List String → List String
  | [] => []
  | [a] => [a]
  | a :: b :: l => if a = b then collapse (b :: l) else a :: collapse (b :: l)

/-- Timesteps the table must account for: labelled, and (with `stratAfterAge`)
younger than the trap within the tolerance. -/
def Counted (thickMin tol : K) (stratAfterAge : Bool) (age : K) (s : Step K) : Prop :=
  (thickMin < s.ice ∨ thickMin < s.ejecta) ∧ (stratAfterAge = true → s.time < age + |age| * tol)

/-- Thickness of a layer. -/
def StratRow.thick (r : StratRow K) : K := r.ice + r.ejecta

end MoonPIES.Spec
