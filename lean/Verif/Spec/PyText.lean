import Mathlib.Data.Rat.Defs
import Mathlib.Algebra.Field.Rat
import Mathlib.Data.Nat.Digits.Defs
import Verif.Model.PyText

/-!
# How values are written in a configuration file

`Writes` says that a text is a spelling of a value, in whatever layout: any white space, line
breaks and comments between the parts, either kind of quotes, any escapes, long strings in
several pieces, trailing commas, extra parentheses.  `pprint` produces one such text.
-/

namespace MoonPIES.Spec

/-- Digits as text. -/
def digitText (ds : List (Fin 10)) : Str := ds.map (fun d => Nat.digitChar d.val)

/-- The number that digits denote. -/
def digitNum : List (Fin 10) → Nat
  | [] => 0
  | d :: ds => d.val * 10 ^ ds.length + digitNum ds

/-- A natural number in decimal notation, without superfluous zeros. -/
def NatText (n : Nat) (s : Str) : Prop :=
  ∃ ds, ds ≠ [] ∧ s = digitText ds ∧ digitNum ds = n ∧ (ds.head? = some 0 → ∀ d ∈ ds, d = 0)

/-- The exponent part of a decimal. -/
inductive ExpText : Int → Str → Prop where
  | none : ExpText 0 []
  | plain (E : Char) (ds) (hE : E = 'e' ∨ E = 'E') (h : ds ≠ []) : ExpText (digitNum ds) (E :: digitText ds)
  | plus (E : Char) (ds) (hE : E = 'e' ∨ E = 'E') (h : ds ≠ []) : ExpText (digitNum ds) (E :: '+' :: digitText ds)
  | minus (E : Char) (ds) (hE : E = 'e' ∨ E = 'E') (h : ds ≠ []) : ExpText (-(digitNum ds : Int)) (E :: '-' :: digitText ds)

/-- A decimal number with a point, an exponent, or both, and its value. -/
inductive DecText : ℚ → Str → Prop where
  | point (ip fp : List (Fin 10)) (e : Int) (es : Str) (h : ip ++ fp ≠ []) (he : ExpText e es) :
    DecText ((digitNum (ip ++ fp) : ℚ) * (10 : ℚ) ^ (e - (fp.length : Int))) (digitText ip ++ '.' :: (digitText fp ++ es))
  | exp (ip : List (Fin 10)) (e : Int) (es : Str) (h : ip ≠ []) (hes : es ≠ []) (he : ExpText e es) :
    DecText ((digitNum ip : ℚ) * (10 : ℚ) ^ e) (digitText ip ++ es)

/-- `k` hexadecimal digits of a number. -/
def hexText : Nat → Nat → Str
  | 0, _ => []
  | k + 1, n => Nat.digitChar (n / 16 ^ k) :: hexText k (n % 16 ^ k)

/-- How a character is written between quotes `q`. -/
inductive CharText (q : Char) : Char → Str → Prop where
  | plain (c : Char) (h : c ≠ q ∧ c ≠ '\\' ∧ c ≠ '\n') : CharText q c [c]
  | backslash : CharText q '\\' ['\\', '\\']
  | single : CharText q '\'' ['\\', '\'']
  | double : CharText q '"' ['\\', '"']
  | newline : CharText q '\n' ['\\', 'n']
  | tab : CharText q '\t' ['\\', 't']
  | ret : CharText q '\r' ['\\', 'r']
  | hex2 (c : Char) (h : c.toNat < 16 ^ 2) : CharText q c ('\\' :: 'x' :: hexText 2 c.toNat)
  | hex4 (c : Char) (h : c.toNat < 16 ^ 4) : CharText q c ('\\' :: 'u' :: hexText 4 c.toNat)
  | hex8 (c : Char) : CharText q c ('\\' :: 'U' :: hexText 8 c.toNat)

/-- The inside of a string literal. -/
inductive BodyText (q : Char) : Str → Str → Prop where
  | nil : BodyText q [] []
  | cons {c s t u} (h : CharText q c t) (hs : BodyText q s u) : BodyText q (c :: s) (t ++ u)

/-- A string literal. -/
inductive QuoteText : Str → Str → Prop where
  | mk {q s u} (hq : q = '\'' ∨ q = '"') (h : BodyText q s u) : QuoteText s (q :: (u ++ [q]))

/-- White space, line breaks and comments. -/
inductive Gap : Str → Prop where
  | nil : Gap []
  | blank {c g} (hc : c = ' ' ∨ c = '\t' ∨ c = '\n') (h : Gap g) : Gap (c :: g)
  | comment {t g} (ht : '\n' ∉ t) (h : Gap g) : Gap ('#' :: (t ++ '\n' :: g))

/-- A string in one or more pieces. -/
inductive PiecesText : Str → Str → Prop where
  | one {s t} (h : QuoteText s t) : PiecesText s t
  | cons {s t g s' t'} (h : QuoteText s t) (hg : Gap g) (hne : g ≠ []) (hs : PiecesText s' t') :
    PiecesText (s ++ s') (t ++ (g ++ t'))

/-- What is written: a value, the items of a tuple or list, the entries of a dictionary. -/
inductive LitPart where
  | lit (v : PyLit)
  | items (l : List PyLit)
  | entries (l : List (Str × PyLit))

/-- The spellings of a value.  `rnd` rounds a decimal to a float. -/
inductive Writes (rnd : ℚ → FloatVal) : LitPart → Str → Prop where
  | none : Writes rnd (.lit .none) "None".toList
  | true : Writes rnd (.lit (.bool true)) "True".toList
  | false : Writes rnd (.lit (.bool false)) "False".toList
  | int {n s} (h : NatText n s) : Writes rnd (.lit (.int n)) s
  | negInt {n s} (h : NatText n s) : Writes rnd (.lit (.int (-(n : Int)))) ('-' :: s)
  | float {q s} (h : DecText q s) : Writes rnd (.lit (.float (rnd q))) s
  | negFloat {q x s} (h : DecText q s) (hx : rnd q = .fin x) : Writes rnd (.lit (.float (.fin (-x)))) ('-' :: s)
  | str {s t} (h : PiecesText s t) : Writes rnd (.lit (.str s)) t
  | paren {v g s g'} (hg : Gap g) (h : Writes rnd (.lit v) s) (hg' : Gap g') :
    Writes rnd (.lit v) ('(' :: (g ++ (s ++ (g' ++ [')']))))
  | tuple {l g t} (hl : l.length ≠ 1) (hg : Gap g) (h : Writes rnd (.items l) t) :
    Writes rnd (.lit (.tuple l)) ('(' :: (g ++ (t ++ [')'])))
  | single {v g s g' g''} (hg : Gap g) (h : Writes rnd (.lit v) s) (hg' : Gap g') (hg'' : Gap g'') :
    Writes rnd (.lit (.tuple [v])) ('(' :: (g ++ (s ++ (g' ++ ',' :: (g'' ++ [')'])))))
  | list {l g t} (hg : Gap g) (h : Writes rnd (.items l) t) :
    Writes rnd (.lit (.list l)) ('[' :: (g ++ (t ++ [']'])))
  | dict {l g t} (hk : (l.map (·.1)).Nodup) (hg : Gap g) (h : Writes rnd (.entries l) t) :
    Writes rnd (.lit (.dict l)) ('{' :: (g ++ (t ++ ['}'])))
  | itemsNil : Writes rnd (.items []) []
  | itemsOne {v s g} (h : Writes rnd (.lit v) s) (hg : Gap g) : Writes rnd (.items [v]) (s ++ g)
  | itemsCons {v s g g' l t} (h : Writes rnd (.lit v) s) (hg : Gap g) (hg' : Gap g')
    (hl : Writes rnd (.items l) t) : Writes rnd (.items (v :: l)) (s ++ (g ++ ',' :: (g' ++ t)))
  | entriesNil : Writes rnd (.entries []) []
  | entriesOne {k ks g₁ g₂ v s g} (hk : PiecesText k ks) (h₁ : Gap g₁) (h₂ : Gap g₂)
    (h : Writes rnd (.lit v) s) (hg : Gap g) :
    Writes rnd (.entries [(k, v)]) (ks ++ (g₁ ++ ':' :: (g₂ ++ (s ++ g))))
  | entriesCons {k ks g₁ g₂ v s g g' l t} (hk : PiecesText k ks) (h₁ : Gap g₁) (h₂ : Gap g₂)
    (h : Writes rnd (.lit v) s) (hg : Gap g) (hg' : Gap g') (hl : Writes rnd (.entries l) t) :
    Writes rnd (.entries ((k, v) :: l)) (ks ++ (g₁ ++ ':' :: (g₂ ++ (s ++ (g ++ ',' :: (g' ++ t))))))

/-- What may stand before the value: blanks on its line, or whole lines. -/
def Lead (g : Str) : Prop := (∀ c ∈ g, c = ' ' ∨ c = '\t') ∨ (Gap g ∧ g.getLast? = some '\n')

/-- What may stand after the value. -/
def Trail (g : Str) : Prop := Gap g ∨ ∃ g' t, Gap g' ∧ '\n' ∉ t ∧ g = g' ++ '#' :: t

/-- A file that holds a dictionary. -/
def FileText (rnd : ℚ → FloatVal) (l : List (Str × PyLit)) (text : Str) : Prop :=
  ∃ a s b, text = a ++ (s ++ b) ∧ Lead a ∧ Writes rnd (.lit (.dict l)) s ∧ Trail b ∧ '\x00' ∉ text

end MoonPIES.Spec
