import Verif.Model.Rounding

/-!
# Randomized crater ages

`/repo/moonpies/moonpies.py` 1934-1955 (`randomize_crater_ages`).
-/

namespace MoonPIES

variable {K : Type} [Field K] [LinearOrder K] [FloorRing K]

/-- A row of the crater table: the age columns and all other columns as `rest`. -/
structure CraterAge (K β : Type) where
  /-- age -/
  age : K
  /-- lower error bar -/
  ageLow : K
  /-- upper error bar -/
  ageUpp : K
  /-- the other columns -/
  rest : β

variable {β : Type}

/-- Standard deviation used for a row (moonpies.py:1947): half the mean error bar. -/
def sigOf (r : CraterAge K β) : K := ((r.ageLow + r.ageUpp) / 2) / 2

/-- Standardised truncation bounds passed to `truncnorm` (moonpies.py:1948-1949). -/
def truncA (r : CraterAge K β) : K := -r.ageLow / sigOf r
/-- Upper standardised bound (moonpies.py:1949). -/
def truncB (r : CraterAge K β) : K := r.ageUpp / sigOf r

/-- One randomized age.  `z` is the standardised truncated-normal draw; scipy returns
`loc + scale * z` and raises `ValueError` unless `a < b` (also for NaN bounds, which
arise when `sig = 0`) and for a negative scale.  moonpies.py:1952-1953. -/
def newAge (ts z : K) (r : CraterAge K β) : Except PyErr (CraterAge K β) :=
  if sigOf r ≤ 0 then .error .valueError
  else if truncA r < truncB r then .ok { r with age := roundToTs (r.age + sigOf r * z) ts }
  else .error .valueError

/-- The age column after randomization, before sorting (moonpies.py:1952-1953): `z i`
is the draw for row `i`. -/
def newAges (ts : K) (z : Nat → K) : Nat → List (CraterAge K β) → Except PyErr (List (CraterAge K β))
  | _, [] => .ok []
  | i, r :: rest => do
    let r' ← newAge ts (z i) r
    let rest' ← newAges ts z (i + 1) rest
    .ok (r' :: rest')

/-- `randomize_crater_ages` (moonpies.py:1934-1955).  `sort_values("age",
ascending=False)` uses an unstable sort: `sort` is any function (see the
hypothesis `SortDesc` in the theorems). -/
def randomizeAges (sort : List (CraterAge K β) → List (CraterAge K β)) (ts : K) (z : Nat → K)
    (rows : List (CraterAge K β)) : Except PyErr (List (CraterAge K β)) :=
  (newAges ts z 0 rows).map sort

end MoonPIES
