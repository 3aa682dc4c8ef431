import Verif.Model.TimeArray

/-!
# Colour maps

`/repo/moonpies/plotting.py` 311-358 (`get_cmap`, `make_cmap`) and its use at 177-181, with
`LinearSegmentedColormap(N=256)` of matplotlib.
-/

namespace MoonPIES

/-- Value of a hexadecimal digit. -/
def hexDigit (c : Char) : Option Nat :=
  if '0' ≤ c ∧ c ≤ '9' then some (c.toNat - 48)
  else if 'a' ≤ c ∧ c ≤ 'f' then some (c.toNat - 87)
  else if 'A' ≤ c ∧ c ≤ 'F' then some (c.toNat - 55)
  else none

/-- Digits after a value already read. -/
def hexFrom (acc : Nat) : List Char → Except PyErr Nat
  | [] => .ok acc
  | c :: cs =>
    match hexDigit c with
    | none => .error .valueError
    | some d => hexFrom (16 * acc + d) cs

/-- `int(s, 16)`: `ValueError` for no digits or another character.  Blanks, signs, underscores and
the prefix `0x`, which `int` also takes, are not modelled. -/
def intHex : List Char → Except PyErr Nat
  | [] => .error .valueError
  | c :: cs => hexFrom 0 (c :: cs)

/-- `value.strip("#")`. -/
def stripHash (l : List Char) : List Char :=
  ((l.dropWhile (· == '#')).reverse.dropWhile (· == '#')).reverse

/-- `hex_to_rgb` (plotting.py:339-343): `range(0, lv, lv//3)` raises for fewer than three characters
and has more than three entries unless the length is a multiple of three. -/
def hexToRgb (value : String) : Except PyErr (List Nat) :=
  let v := stripHash value.toList
  let step := v.length / 3
  if step = 0 then .error .valueError
  else (List.range ((v.length + step - 1) / step)).mapM
    (fun i => intHex ((v.drop (i * step)).take step))

variable {K : Type} [Field K] [LinearOrder K]

/-- `rgb_to_dec` (plotting.py:345-347). -/
def rgbToDec (value : List Nat) : List K := value.map (fun v => (v : K) / 256)

/-- `locs` of `make_cmap` (plotting.py:350-351). -/
def cmapLocs (locs : Option (List K)) (n : Nat) : Except PyErr (List K) :=
  match locs with
  | some l => .ok l
  | none => linspace 0 1 n

/-- Knots of one channel (plotting.py:354-356): `rgbs[i]` and `rgbs[i][num]` raise `IndexError`. -/
def cmapKnots (locs : List K) (rgbs : List (List K)) (num : Nat) : Except PyErr (List (K × K)) :=
  locs.zipIdx.mapM (fun p =>
    match rgbs[p.2]? with
    | none => .error .indexError
    | some rgb =>
      match rgb[num]? with
      | none => .error .indexError
      | some c => .ok (p.1, c))

/-- One entry of the table of matplotlib's `_create_lookup_table` (`gamma = 1`): linear between the
last knot below `t` and the next; the knots are in units of table entries. -/
def lutFrom (t : K) (prev : K × K) : List (K × K) → Except PyErr K
  | [] => .error .indexError
  | q :: rest =>
    if q.1 < t then lutFrom t q rest
    else .ok ((t - prev.1) / (q.1 - prev.1) * (q.2 - prev.2) + prev.2)

/-- `np.clip(x, 0, 1)`. -/
def clip01 (x : K) : K := min (max x 0) 1

/-- `_create_lookup_table(256, data)` of matplotlib: locations start with 0, end with 1 and do not
decrease.  (Matplotlib builds the table when the map is first used.) -/
def lookupTable (knots : List (K × K)) : Except PyErr (List K) :=
  match knots with
  | [] => .error .valueError
  | p :: rest =>
    match (p :: rest).getLast? with
    | none => .error .valueError
    | some q =>
      if p.1 ≠ 0 ∨ q.1 ≠ 1 then .error .valueError
      else if ¬ (p :: rest).IsChain (fun a b => a.1 ≤ b.1) then .error .valueError
      else do
        let mid ← (List.range 254).mapM (fun i =>
          lutFrom ((i + 1 : Nat) : K) (p.1 * 255, p.2) (rest.map (fun r => (r.1 * 255, r.2))))
        .ok ((p.2 :: mid ++ [q.2]).map clip01)

/-- A colour map: the three tables. -/
structure Cmap (K : Type) where
  /-- red -/
  red : List K
  /-- green -/
  green : List K
  /-- blue -/
  blue : List K

/-- `make_cmap` (plotting.py:321-358). -/
def makeCmap (hexList : List String) (locs : Option (List K)) : Except PyErr (Cmap K) := do
  let rgbs ← hexList.mapM hexToRgb
  let dec : List (List K) := rgbs.map rgbToDec
  let locs ← cmapLocs locs dec.length
  let r ← cmapKnots locs dec 0
  let g ← cmapKnots locs dec 1
  let b ← cmapKnots locs dec 2
  let r ← lookupTable r
  let g ← lookupTable g
  let b ← lookupTable b
  .ok { red := r, green := g, blue := b }

/-- `CMAP_COLORS` (plotting.py:16). -/
def cmapColors : List String := ["#D3D3D3", "#1f77b4"]

/-- Entry of the table for an ice percentage (`cmap(norm(icepct))`, plotting.py:180 with 178):
values outside take the first or last entry. -/
def cmapIndex [FloorRing K] (p : K) : Nat :=
  if p / 100 < 0 then 0
  else if p / 100 * 256 < 256 then ⌊p / 100 * 256⌋.toNat
  else 255

/-- Colour of an ice percentage, `none` is transparent (the colour of NaN). -/
def Cmap.colour [FloorRing K] (m : Cmap K) (p : Option K) : Except PyErr (Option (K × K × K)) :=
  match p with
  | none => .ok none
  | some p =>
    match m.red[cmapIndex p]?, m.green[cmapIndex p]?, m.blue[cmapIndex p]? with
    | some r, some g, some b => .ok (some (r, g, b))
    | _, _, _ => .error .indexError

end MoonPIES
