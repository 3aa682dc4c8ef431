import Verif.Spec.Config

/-!
# Specification of where a run keeps its files

Absolute paths are lists of names, so no path functions are needed to say where a file is.
-/

namespace MoonPIES.Spec

/-- The absolute path through the given directories, from the root. -/
def inDir (names : List Str) : Str := names.flatMap (fun b => '/' :: b)

/-- A name that can be a directory or file: not empty, without slash, not `.` or `..`. -/
def FileName (s : Str) : Prop := s ≠ [] ∧ '/' ∉ s ∧ s ≠ ".".toList ∧ s ≠ "..".toList

/-- The text `q` names the directory `p`: equal up to slashes at the end. -/
def SameDir (q p : Str) : Prop := ∃ k, q = p ++ List.replicate k '/'

/-- The user did not give a path (an empty text counts as none). -/
def NotGiven (kw : List (String × PyVal)) (f : String) : Prop :=
  ∀ v, (f, v) ∈ kw → v = .str []

/-- What the user gave for a field, or its declared default. -/
def Setting (kw : List (String × PyVal)) (f : String) (v : PyVal) : Prop :=
  (f, v) ∈ kw ∨ (f ∉ kw.map (·.1) ∧ ∃ d ∈ cfgFields, d.name = f ∧ d.dflt = v)

end MoonPIES.Spec
