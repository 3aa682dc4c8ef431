import Verif.Model.Basic

/-!
# Memoised functions

`functools.lru_cache` as used on `read_ballistic_melt_frac` (moonpies.py:442), `asteroid_speed_rv`
(2027), `comet_speed_rv` (2038), `neukum` (2055), `get_crater_sfd` (2139) and `diam2len_prieur`
(2304), and `clear_cache` (moonpies.py:2855-2860).  Keys are the argument tuples; equality of keys
is whatever `==` of the arguments says.  The cached objects are taken as immutable: no caller in
moonpies.py writes to them.  None of the functions calls itself, so there is no reentry.
-/

namespace MoonPIES

/-- A decorated function: its key equality, which keys can be hashed, its undecorated body and
`maxsize` (`none` is unbounded). -/
structure Memo (κ β : Type) where
  eq : κ → κ → Bool
  hashable : κ → Bool
  body : κ → Except PyErr β
  maxsize : Option Nat

variable {κ β : Type}

/-- Cache content, most recently used first. -/
abbrev Entries (κ β : Type) := List (κ × β)

/-- Look up a key and take its entry out. -/
def takeOut (eq : κ → κ → Bool) (k : κ) : Entries κ β → Option ((κ × β) × Entries κ β)
  | [] => none
  | e :: es => if eq e.1 k then some (e, es) else (takeOut eq k es).map (fun r => (r.1, e :: r.2))

/-- One call of the decorated function: new cache content, result, and whether the body was
evaluated.  An exception is passed on and nothing is stored; a full cache loses its least
recently used entry; with `maxsize` 0 nothing is stored. -/
def Memo.call (m : Memo κ β) (es : Entries κ β) (k : κ) : Entries κ β × Except PyErr β × Bool :=
  if m.maxsize = some 0 then (es, m.body k, true)
  else if m.hashable k = false then (es, .error .typeError, false)
  else match takeOut m.eq k es with
    | some (e, rest) => (e :: rest, .ok e.2, false)
    | none => match m.body k with
      | .error e => (es, .error e, true)
      | .ok v => match m.maxsize with
        | none => ((k, v) :: es, .ok v, true)
        | some n => if es.length < n then ((k, v) :: es, .ok v, true)
          else ((k, v) :: es.dropLast, .ok v, true)

/-- A program with several decorated functions, one cache each. -/
structure Memos (ι : Type) (κ β : ι → Type) where
  fn : ∀ i, Memo (κ i) (β i)

/-- What the program does to the caches: call a function, or `clear_cache()`. -/
inductive CacheOp (ι : Type) (κ : ι → Type) where
  | call (i : ι) (k : κ i)
  | clear

variable {ι : Type} [DecidableEq ι] {κs βs : ι → Type}

/-- Effect of one operation on all caches, and the value returned by a call. -/
def Memos.step (m : Memos ι κs βs) (c : ∀ i, Entries (κs i) (βs i)) :
    CacheOp ι κs → (∀ i, Entries (κs i) (βs i)) × Option (Σ i, Except PyErr (βs i))
  | .clear => (fun _ => [], none)
  | .call i k => (fun j => if h : j = i then h ▸ ((m.fn i).call (c i) k).1 else c j,
      some ⟨i, ((m.fn i).call (c i) k).2.1⟩)

/-- Run operations in order; final caches and everything returned. -/
def Memos.run (m : Memos ι κs βs) (c : ∀ i, Entries (κs i) (βs i)) :
    List (CacheOp ι κs) → (∀ i, Entries (κs i) (βs i)) × List (Option (Σ i, Except PyErr (βs i)))
  | [] => (c, [])
  | op :: ops =>
    let r := m.step c op
    let s := Memos.run m r.1 ops
    (s.1, r.2 :: s.2)

end MoonPIES
