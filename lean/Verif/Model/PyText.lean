import Mathlib.Data.Rat.Defs
import Mathlib.Algebra.Field.Rat
import Verif.Model.Config

/-!
# Configuration files as text

`ast.literal_eval` of a configuration file (`/repo/moonpies/config.py` 431-442) for the literals
that occur in it: `None`, booleans, decimal integers and floats, strings, tuples, lists and
dictionaries with string keys.  Left out, and refused: sets, bytes, complex numbers, hexadecimal,
octal and binary integers, underscores in numbers, string prefixes, triple quotes, `\N{…}` and
octal escapes, line continuation by a backslash outside strings, a sign before a parenthesis.
Python refuses an indented first expression after an empty line; this is accepted here.
-/

namespace MoonPIES

/-- A literal. -/
inductive PyLit where
  | none
  | bool (b : Bool)
  | int (n : Int)
  | float (x : FloatVal)
  | str (s : Str)
  | tuple (l : List PyLit)
  | list (l : List PyLit)
  | dict (l : List (Str × PyLit))

/-- Tokens of Python's tokenizer; numbers and strings carry their value. -/
inductive PyTok where
  | lbrace | rbrace | lpar | rpar | lbrack | rbrack | comma | colon | minus | plus
  | word (s : Str)
  | int (n : Nat)
  | float (x : FloatVal)
  | str (s : Str)

/-! ## Numbers -/

/-- Value of a string of decimal digits. -/
def digitsNat (s : Str) : Nat := s.foldl (fun n c => 10 * n + (c.toNat - 48)) 0

/-- The exponent of a float literal: a sign and digits. -/
def readExp : Str → Option Int
  | '-' :: ds => if ds ≠ [] ∧ ds.all Char.isDigit then some (-(digitsNat ds : Int)) else none
  | '+' :: ds => if ds ≠ [] ∧ ds.all Char.isDigit then some (digitsNat ds) else none
  | ds => if ds ≠ [] ∧ ds.all Char.isDigit then some (digitsNat ds) else none

/-- The exponent from the part of a literal that starts with `e`; 0 if there is none. -/
def tailExp : Str → Option Int
  | [] => some 0
  | _ :: t => readExp t

/-- The number a decimal literal denotes: integers exactly, floats by rounding the decimal
(`rnd`). -/
def readNum (rnd : ℚ → FloatVal) (s : Str) : Option PyTok :=
  if s.all Char.isDigit then
    if s.head? = some '0' ∧ ¬ s.all (· == '0') then none else some (.int (digitsNat s))
  else
    let isE : Char → Bool := fun c => c == 'e' || c == 'E'
    let mant := s.takeWhile (fun c => !isE c)
    let tail := s.dropWhile (fun c => !isE c)
    let ip := mant.takeWhile (· != '.')
    let fp := (mant.dropWhile (· != '.')).drop 1
    match tailExp tail with
    | none => none
    | some e =>
      if ip.all Char.isDigit ∧ fp.all Char.isDigit ∧ ip ++ fp ≠ [] then
        some (.float (rnd ((digitsNat (ip ++ fp) : ℚ) * (10 : ℚ) ^ (e - (fp.length : Int)))))
      else none

/-! ## Strings -/

/-- Where the reader stands inside a string literal. -/
inductive StrState where
  | plain
  | esc
  /-- so many hexadecimal digits still to come, and the value of those read -/
  | hex (left : Nat) (acc : Nat)

/-- A hexadecimal digit. -/
def hexVal (c : Char) : Option Nat :=
  if c.isDigit then some (c.toNat - 48)
  else if 'a' ≤ c ∧ c ≤ 'f' then some (c.toNat - 87)
  else if 'A' ≤ c ∧ c ≤ 'F' then some (c.toNat - 55)
  else none

/-- The character with a given code; a lone surrogate has no counterpart here. -/
def chrOf (n : Nat) : Except PyErr Char :=
  if n < 0xd800 ∨ (0xdfff < n ∧ n < 0x110000) then .ok (Char.ofNat n) else .error .valueError

/-- What a backslash and the character after it stand for; unknown ones stay as they are. -/
def escChars (c : Char) : Str :=
  if c = 'n' then ['\n'] else if c = 't' then ['\t'] else if c = 'r' then ['\r']
  else if c = 'a' then ['\x07'] else if c = 'b' then ['\x08'] else if c = 'f' then ['\x0c']
  else if c = 'v' then ['\x0b']
  else if c = '\\' ∨ c = '\'' ∨ c = '"' then [c]
  else ['\\', c]

/-- Reads a string literal up to its closing quote: the value and the rest of the text. -/
def lexStr (q : Char) : StrState → Str → Except PyErr (Str × Str)
  | _, [] => .error .valueError
  | .plain, c :: cs =>
    if c = q then .ok ([], cs)
    else if c = '\n' then .error .valueError
    else if c = '\\' then lexStr q .esc cs
    else (lexStr q .plain cs).map (fun r => (c :: r.1, r.2))
  | .esc, c :: cs =>
    if c = '\n' then lexStr q .plain cs
    else if c = 'x' then lexStr q (.hex 2 0) cs
    else if c = 'u' then lexStr q (.hex 4 0) cs
    else if c = 'U' then lexStr q (.hex 8 0) cs
    else if c = 'N' ∨ ('0' ≤ c ∧ c ≤ '7') then .error .valueError
    else
      (lexStr q .plain cs).map (fun r => (escChars c ++ r.1, r.2))
  | .hex 0 _, _ :: _ => .error .valueError
  | .hex (k + 1) acc, c :: cs =>
    match hexVal c with
    | none => .error .valueError
    | some d =>
      match k with
      | 0 => match chrOf (16 * acc + d) with
        | .error e => .error e
        | .ok x => (lexStr q .plain cs).map (fun r => (x :: r.1, r.2))
      | k + 1 => lexStr q (.hex (k + 1) (16 * acc + d)) cs

/-! ## Tokens -/

/-- Characters of names. -/
def isNameChar (c : Char) : Bool := c.isAlphanum || c == '_'

/-- The longest piece of text that is one number token (a sign belongs to it after `e`). -/
def munchNum : Bool → Str → Str × Str
  | _, [] => ([], [])
  | prevE, c :: cs =>
    if isNameChar c || c == '.' || (prevE && (c == '+' || c == '-')) then
      let r := munchNum (c == 'e' || c == 'E') cs
      (c :: r.1, r.2)
    else ([], c :: cs)

/-- Nothing but blanks, line ends and comments. -/
def blankText : Bool → Str → Bool
  | _, [] => true
  | true, c :: cs => blankText (c != '\n') cs
  | false, c :: cs =>
    if c = '#' then blankText true cs
    else (c == ' ' || c == '\t' || c == '\n') && blankText false cs

/-- Leading blanks, empty lines and comments dropped. -/
def dropLead : Bool → Str → Str
  | _, [] => []
  | true, c :: cs => dropLead (c != '\n') cs
  | false, c :: cs =>
    if c = '#' then dropLead true cs
    else if c = ' ' ∨ c = '\t' ∨ c = '\n' then dropLead false cs
    else c :: cs

/-- Brackets and the other one-character tokens. -/
def punct (c : Char) : Option PyTok :=
  if c = '{' then some .lbrace else if c = '}' then some .rbrace
  else if c = '(' then some .lpar else if c = ')' then some .rpar
  else if c = '[' then some .lbrack else if c = ']' then some .rbrack
  else if c = ',' then some .comma else if c = ':' then some .colon
  else if c = '-' then some .minus else if c = '+' then some .plus else none

/-- Bracket depth after a token. -/
def depthAfter (d : Nat) : PyTok → Nat
  | .lbrace | .lpar | .lbrack => d + 1
  | .rbrace | .rpar | .rbrack => d - 1
  | _ => d

/-- The tokens of a text, starting at bracket depth `d`; a line end outside brackets ends the
expression.  The first argument bounds the number of steps. -/
def lexText (rnd : ℚ → FloatVal) : Nat → Nat → Str → Except PyErr (List PyTok)
  | _, _, [] => .ok []
  | 0, _, _ :: _ => .error .valueError
  | n + 1, d, c :: cs =>
    if c = ' ' ∨ c = '\t' then lexText rnd n d cs
    else if c = '\n' then
      if d = 0 then (if blankText false cs then .ok [] else .error .valueError)
      else lexText rnd n d cs
    else if c = '#' then lexText rnd n d (cs.dropWhile (· != '\n'))
    else if c = '\'' ∨ c = '"' then
      if [c, c] <+: cs then .error .valueError
      else match lexStr c .plain cs with
        | .error e => .error e
        | .ok (s, r) => (lexText rnd n d r).map (.str s :: ·)
    else if c.isDigit ∨ c = '.' then
      let m := munchNum false (c :: cs)
      match readNum rnd m.1 with
      | none => .error .valueError
      | some t => (lexText rnd n d m.2).map (t :: ·)
    else if isNameChar c then
      let w := (c :: cs).takeWhile isNameChar
      (lexText rnd n d ((c :: cs).dropWhile isNameChar)).map (.word w :: ·)
    else match punct c with
      | none => .error .valueError
      | some t => (lexText rnd n (depthAfter d t) cs).map (t :: ·)

/-! ## Expressions -/

/-- Adjacent string literals are joined. -/
def joinStrs : Str → List PyTok → Str × List PyTok
  | s, .str t :: r => joinStrs (s ++ t) r
  | s, r => (s, r)

/-- `d[k] = v` on an association list. -/
def setKey (d : List (Str × PyLit)) (k : Str) (v : PyLit) : List (Str × PyLit) :=
  if d.any (fun p => decide (p.1 = k)) then d.map (fun p => if p.1 = k then (k, v) else p)
  else d ++ [(k, v)]

/-- The dictionary of a display: later entries replace earlier ones. -/
def dictDisplay (l : List (Str × PyLit)) : List (Str × PyLit) :=
  l.foldl (fun d p => setKey d p.1 p.2) []

/-- `-x`. -/
def FloatVal.neg : FloatVal → FloatVal
  | .fin q => .fin (-q)
  | .inf b => .inf !b
  | .nan => .nan

/-- Which bracket closes a sequence. -/
inductive Closer where
  | par
  | brack

def Closer.is : Closer → PyTok → Bool
  | .par, .rpar => true
  | .brack, .rbrack => true
  | _, _ => false

mutual

/-- One expression, and the tokens after it. -/
def parseLit : Nat → List PyTok → Except PyErr (PyLit × List PyTok)
  | 0, _ => .error .valueError
  | _ + 1, .str s :: r => let p := joinStrs s r; .ok (.str p.1, p.2)
  | _ + 1, .int n :: r => .ok (.int n, r)
  | _ + 1, .float x :: r => .ok (.float x, r)
  | _ + 1, .minus :: .int n :: r => .ok (.int (-(n : Int)), r)
  | _ + 1, .minus :: .float x :: r => .ok (.float x.neg, r)
  | _ + 1, .plus :: .int n :: r => .ok (.int n, r)
  | _ + 1, .plus :: .float x :: r => .ok (.float x, r)
  | _ + 1, .word w :: r =>
    if w = "None".toList then .ok (.none, r)
    else if w = "True".toList then .ok (.bool true, r)
    else if w = "False".toList then .ok (.bool false, r)
    else .error .valueError
  | n + 1, .lpar :: r => do
    let (l, comma, r') ← parseSeq n .par r
    match l, comma with
    | [v], false => .ok (v, r')
    | l, _ => .ok (.tuple l, r')
  | n + 1, .lbrack :: r => do
    let (l, _, r') ← parseSeq n .brack r
    .ok (.list l, r')
  | n + 1, .lbrace :: r => do
    let (l, r') ← parsePairs n r
    .ok (.dict (dictDisplay l), r')
  | _ + 1, _ => .error .valueError

/-- Expressions separated by commas up to the closing bracket; whether a comma (or nothing at
all) stood before the bracket; the tokens after it. -/
def parseSeq : Nat → Closer → List PyTok → Except PyErr (List PyLit × Bool × List PyTok)
  | 0, _, _ => .error .valueError
  | _ + 1, _, [] => .error .valueError
  | n + 1, k, t :: r =>
    if k.is t then .ok ([], true, r)
    else do
      let (v, r') ← parseLit n (t :: r)
      match r' with
      | .comma :: r'' => do
        let (l, comma, r3) ← parseSeq n k r''
        .ok (v :: l, comma, r3)
      | t' :: r'' => if k.is t' then .ok ([v], false, r'') else .error .valueError
      | [] => .error .valueError

/-- Entries of a dictionary up to its closing brace. -/
def parsePairs : Nat → List PyTok → Except PyErr (List (Str × PyLit) × List PyTok)
  | 0, _ => .error .valueError
  | _ + 1, .rbrace :: r => .ok ([], r)
  | n + 1, ts => do
    let (k, r) ← parseLit n ts
    match k, r with
    | .str k, .colon :: r' => do
      let (v, r2) ← parseLit n r'
      match r2 with
      | .comma :: r3 => do
        let (l, r4) ← parsePairs n r3
        .ok ((k, v) :: l, r4)
      | .rbrace :: r3 => .ok ([(k, v)], r3)
      | _ => .error .valueError
    | _, _ => .error .valueError

end

/-- `ast.literal_eval(text)`; syntax errors are reported as `ValueError`. -/
def literalEval (rnd : ℚ → FloatVal) (text : Str) : Except PyErr PyLit :=
  if '\x00' ∈ text then .error .valueError
  else do
    let toks ← lexText rnd text.length 0 (dropLead false text)
    let (v, r) ← parseLit (2 * toks.length + 1) toks
    match r with
    | [] => .ok v
    | _ => .error .valueError

/-! ## Configuration files -/

/-- A literal inside a tuple or dictionary of a configuration. -/
def PyLit.toAtom : PyLit → Option Atom
  | .none => some .none
  | .bool b => some (.bool b)
  | .int n => some (.int n)
  | .float (.fin q) => some (.float q)
  | .str s => some (.str s)
  | _ => Option.none

/-- The items of a tuple. -/
def PyLit.toAtoms : PyLit → Option (List Atom)
  | .tuple l => l.mapM PyLit.toAtom
  | _ => Option.none

/-- A literal as a value of `Model/Config`; deeper nesting has no counterpart there. -/
def PyLit.toVal : PyLit → Option PyVal
  | .none => some .none
  | .bool b => some (.bool b)
  | .int n => some (.int n)
  | .float x => some x.toVal
  | .str s => some (.str s)
  | .tuple l => (l.mapM PyLit.toAtom).map .tuple
  | .list l => (l.mapM PyLit.toAtom).map .list
  | .dict l => (l.mapM (fun p : Str × PyLit => (p.2.toAtoms).map (fun a => (p.1, a)))).map .dict

/-- `read_custom_cfg` for a file with the given text (config.py:431-442). -/
def readCfgText (rnd : ℚ → FloatVal) (env : Env) (text : Str) (seed : Option Int) :
    Except PyErr CfgVals := do
  match ← literalEval rnd text with
  | .dict l =>
    match l.mapM (fun p : Str × PyLit => p.2.toVal.map (fun v => (String.ofList p.1, v))) with
    | some d => readCustomCfg env (some d) seed
    | none => .error .typeError
  | _ => .error .typeError

end MoonPIES
