/-!
# Shared vocabulary of the model

Python exceptions as values, and insertion-ordered dictionaries.
-/

namespace MoonPIES

/-- The Python exceptions that the modelled code can raise. -/
inductive PyErr where
  /-- list/array index out of range -/
  | indexError
  /-- missing dictionary key / pandas label -/
  | keyError
  /-- attribute does not exist -/
  | attributeError
  /-- `raise ValueError`, or a failed conversion -/
  | valueError
  /-- wrong type of argument -/
  | typeError
  /-- division by zero on Python numbers -/
  | zeroDivisionError
  /-- `UnboundLocalError`: a local variable was never assigned -/
  | unboundLocalError
  /-- filesystem errors -/
  | osError
  /-- result too large -/
  | overflowError
  deriving DecidableEq, Repr

/-- A Python `dict` with string keys: association list in insertion order. -/
abbrev PyDict (α : Type) := List (String × α)

namespace PyDict

variable {α : Type}

/-- `d[k]`, raising `KeyError` when the key is missing. -/
def get (d : PyDict α) (k : String) : Except PyErr α :=
  match d with
  | [] => .error .keyError
  | (k', v) :: rest => if k' = k then .ok v else get rest k

/-- `d[k] = v`: replace in place when present, append otherwise. -/
def set (d : PyDict α) (k : String) (v : α) : PyDict α :=
  match d with
  | [] => [(k, v)]
  | (k', v') :: rest => if k' = k then (k, v) :: rest else (k', v') :: set rest k v

end PyDict

/-- Non-negative list/array indexing `l[i]` with the Python error branch. -/
def pyGet {α : Type} (l : List α) (i : Nat) : Except PyErr α :=
  match l[i]? with
  | some x => .ok x
  | none => .error .indexError

end MoonPIES
