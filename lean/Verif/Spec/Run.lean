import Mathlib.Data.List.Forall2
import Verif.Model.Column
import Verif.Spec.Column

/-!
# Specification vocabulary for whole runs
-/

namespace MoonPIES

open Spec

variable {K : Type} [Field K] [LinearOrder K]

/-- The relation between a cold-trap entry before and after: same name, same
ejecta and sources, and ice only lost. -/
def EntryLoses (p p' : String × StratCol K) : Prop :=
  p.1 = p'.1 ∧ p'.2.ej = p.2.ej ∧ p'.2.src = p.2.src ∧ OnlyLosesIce p.2.ice p'.2.ice

/-- Keep only the first `n` timesteps of a cold-trap entry. -/
def StratCol.truncate (n : Nat) (c : StratCol K) : StratCol K :=
  { ice := c.ice.take n, ej := c.ej.take n, src := c.src.take n }

/-- Keep only the first `n` timesteps of every cold trap. -/
def truncCols (n : Nat) (cols : PyDict (StratCol K)) : PyDict (StratCol K) :=
  cols.map (fun p => (p.1, p.2.truncate n))

/-- Inputs of `update_strat_cols` as `main` builds them: every cold trap has a
column at least as long as the overturn array, the sedimentation arrays have a
row per timestep and a column per cold trap, thicknesses are non-negative and
fractions lie in `[0,1]`; all numbers are representable. -/
structure WellFormed (fl : K → K) (names : List String) (cols : PyDict (StratCol K))
    (overturn : List K) (bsedDepth bsedFrac : List (List K)) : Prop where
  hasTraps : ∀ name ∈ names, name ∈ cols.map (·.1)
  iceLength : ∀ p ∈ cols, overturn.length ≤ p.2.ice.length
  ejLength : ∀ p ∈ cols, overturn.length ≤ p.2.ej.length
  iceNonneg : ∀ p ∈ cols, ∀ x ∈ p.2.ice, 0 ≤ x
  iceRepr : ∀ p ∈ cols, ∀ x ∈ p.2.ice, Repr fl x
  overturnRepr : ∀ x ∈ overturn, Repr fl x
  depthRows : overturn.length ≤ bsedDepth.length
  fracRows : overturn.length ≤ bsedFrac.length
  depthCols : ∀ row ∈ bsedDepth, names.length ≤ row.length
  fracCols : ∀ row ∈ bsedFrac, names.length ≤ row.length
  depthRepr : ∀ row ∈ bsedDepth, ∀ x ∈ row, Repr fl x
  fracRange : ∀ row ∈ bsedFrac, ∀ x ∈ row, 0 ≤ x ∧ x ≤ 1

/-- Column `j` of a 2D array, as a one-column array: python `m[:, j:j+1]`. -/
def colOf {α : Type} (j : Nat) (m : List (List α)) : List (List α) :=
  m.map (fun row => (row.drop j).take 1)

end MoonPIES
