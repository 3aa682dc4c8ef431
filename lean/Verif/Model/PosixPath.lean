/-!
# `os.path` on a POSIX system

The functions of CPython's `posixpath` that `/repo/moonpies/config.py` (lines 301-324, 385-425)
and `/repo/moonpies/moonpies.py` (2651-2700) call.  Strings are lists of characters.
-/

namespace MoonPIES

/-- A python string. -/
abbrev Str := List Char

/-- `s.split('/')`. -/
def splitSlash : Str → List Str
  | [] => [[]]
  | c :: cs =>
    if c = '/' then [] :: splitSlash cs
    else match splitSlash cs with
      | [] => [[c]]
      | h :: t => (c :: h) :: t

/-- `'/'.join(comps)`. -/
def joinSlash : List Str → Str
  | [] => []
  | [c] => c
  | c :: d :: rest => c ++ '/' :: joinSlash (d :: rest)

/-- `os.path.join(a, b)`. -/
def pathJoin (a b : Str) : Str :=
  if b.head? = some '/' then b
  else if a = [] ∨ a.getLast? = some '/' then a ++ b
  else a ++ '/' :: b

/-- `os.path.basename`: what follows the last slash. -/
def baseName (p : Str) : Str := (p.reverse.takeWhile (fun c => c != '/')).reverse

/-- `s.rstrip('/')`. -/
def rstripSlash (s : Str) : Str := (s.reverse.dropWhile (fun c => c == '/')).reverse

/-- `os.path.dirname`: what precedes the last slash, without trailing slashes unless it is
all slashes. -/
def dirName (p : Str) : Str :=
  let head := (p.reverse.dropWhile (fun c => c != '/')).reverse
  if head.all (fun c => c == '/') then head else rstripSlash head

/-- Number of leading slashes that `normpath` keeps: exactly two are kept, three or more
become one. -/
def initialSlashes : Str → Nat
  | '/' :: '/' :: '/' :: _ => 1
  | '/' :: '/' :: _ => 2
  | '/' :: _ => 1
  | _ => 0

/-- Loop of `normpath` over the components; `acc` is `new_comps` reversed. -/
def normComps (abs : Bool) : List Str → List Str → List Str
  | acc, [] => acc.reverse
  | acc, c :: cs =>
    if c = [] ∨ c = ['.'] then normComps abs acc cs
    else if c ≠ ['.', '.'] ∨ (abs = false ∧ acc = []) ∨ acc.head? = some ['.', '.'] then
      normComps abs (c :: acc) cs
    else normComps abs acc.tail cs

/-- `os.path.normpath`. -/
def normPath (p : Str) : Str :=
  if p = [] then ['.'] else
    let n := initialSlashes p
    let q := List.replicate n '/' ++ joinSlash (normComps (decide (n ≠ 0)) [] (splitSlash p))
    if q = [] then ['.'] else q

/-- `os.path.abspath` with the current directory `cwd`. -/
def absPath (cwd p : Str) : Str :=
  normPath (if p.head? = some '/' then p else pathJoin cwd p)

/-- `os.path.expanduser`; `userHome` gives the home directory for `~` or `~name` if the user
is known. -/
def expandUser (userHome : Str → Option Str) (p : Str) : Str :=
  match p with
  | '~' :: rest =>
    let user := '~' :: rest.takeWhile (fun c => c != '/')
    match userHome user with
    | none => p
    | some home =>
      let q := rstripSlash home ++ rest.dropWhile (fun c => c != '/')
      if q = [] then ['/'] else q
  | _ => p

end MoonPIES
