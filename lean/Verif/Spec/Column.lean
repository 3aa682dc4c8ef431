import Mathlib.Algebra.Order.Field.Basic
import Mathlib.Algebra.BigOperators.Group.List.Basic

/-!
# Specification vocabulary for ice columns

Independent of the model: only lists, sums and order.
-/

namespace MoonPIES.Spec

variable {K : Type} [Field K] [LinearOrder K]

/-- What is assumed of floating-point rounding: it is monotone, fixes zero and
rounding a rounded number changes nothing.  (IEEE round-to-nearest without
overflow satisfies this; so does exact arithmetic, `fl = id`.) -/
structure Rounding (fl : K → K) : Prop where
  mono : Monotone fl
  zero : fl 0 = 0
  idem : ∀ x, fl (fl x) = fl x

/-- `x` is a representable number for the rounding `fl`. -/
def Repr (fl : K → K) (x : K) : Prop := fl x = x

/-- Exact arithmetic is a rounding. -/
theorem Rounding.id : Rounding (fun x : K => x) :=
  ⟨fun _ _ h => h, rfl, fun _ => rfl⟩

/-- `after` has the same number of layers as `before`, and each layer holds
between nothing and what it held before. -/
def OnlyLosesIce (before after : List K) : Prop :=
  List.Forall₂ (fun x x' => 0 ≤ x' ∧ x' ≤ x) before after

/-- Total of the layers with index in `[i, k)`: python `sum(l[i:k])`. -/
def seg (l : List K) (i k : Nat) : K := ((l.take k).drop i).sum

/-- Depth from the surface of the column at time `t` down to the top of the ice
of layer `i`: ejecta of layers `i..t` (the ejecta of a layer lies above its
ice) plus ice of layers `i+1..t`. -/
def depthToIce (ice ej : List K) (t i : Nat) : K := seg ej i (t + 1) + seg ice (i + 1) (t + 1)

/-- The depth-budget rule for gardening to `depth` with efficiency `eff` at time
`t`: a layer `i ≤ t` whose ice starts above `depth` (measured in the *resulting*
column) loses `min (eff * ice) (depth - that)`; all others keep their ice. -/
def GardenRule (ice ej : List K) (t : Nat) (depth eff : K) (ice' : List K) : Prop :=
  ice'.length = ice.length ∧
  ∀ i x x', ice[i]? = some x → ice'[i]? = some x' →
    x' = if i ≤ t ∧ depthToIce ice' ej t i < depth
      then x - min (x * eff) (depth - depthToIce ice' ej t i)
      else x

end MoonPIES.Spec
