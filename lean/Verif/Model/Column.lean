import Mathlib.Algebra.Order.Field.Basic
import Verif.Model.Basic

/-!
# Model of the ice column: gardening, Cannon erosion and the main time loop

`/repo/moonpies/moonpies.py` lines 144-226 and 1351-1484.

All arithmetic goes through a rounding function `fl`, applied after every
floating-point operation.  `fl = id` is exact arithmetic.
Numpy's in-place array updates are modelled by threading the array.
-/

namespace MoonPIES

variable {K : Type} [Field K] [LinearOrder K]

/-- Body of the `while` loop of `garden_ice_column`
(moonpies.py 1469-1483).  The first argument is `i + 1`, so `0` means the loop
test `i >= 0` fails; `d` is the running depth.  Index errors are explicit. -/
def gardenLoop (fl : K → K) (ej : List K) (depth eff : K) :
    Nat → K → List K → Except PyErr (List K)
  | 0, _, ice => .ok ice
  | n + 1, d, ice =>
    if d < depth then
      if n % 2 = 1 then
        match ej[n / 2]? with
        | none => .error .indexError
        | some e => gardenLoop fl ej depth eff n (fl (d + e)) ice
      else
        match ice[n / 2]? with
        | none => .error .indexError
        | some x =>
          let removed := fl (x * eff)
          let removed := if fl (d + removed) > depth then fl (depth - d) else removed
          let x' := fl (x - removed)
          gardenLoop fl ej depth eff n (fl (d + x')) (ice.set (n / 2) x')
    else .ok ice

/-- `garden_ice_column(ice_column, ejecta_column, t, depth, eff)`
(moonpies.py 1440-1484).  `i` starts at `2*t + 1`; a negative start index
(`t = -1`) skips the loop. -/
def gardenIceColumn (fl : K → K) (ice ej : List K) (t : Int) (depth eff : K) :
    Except PyErr (List K) :=
  gardenLoop fl ej depth eff (2 * t + 2).toNat 0 ice

/-- `np.where(ej_col[: t + 1] > ej_shield)[0]` (moonpies.py 1417): the
ascending list of indices `j ≤ t` with `ej_col[j] > ej_shield`. -/
def shieldIdx (ej : List K) (t : Nat) (shield : K) : List Nat :=
  (List.range (ej.take (t + 1)).length).filter
    (fun j => match ej[j]? with
      | some e => decide (e > shield)
      | none => false)

/-- `erosion_base` (moonpies.py 1416-1419): last such index, or `-1`. -/
def erosionBase (ej : List K) (t : Nat) (shield : K) : Int :=
  match (shieldIdx ej t shield).getLast? with
  | some j => (j : Int)
  | none => -1

/-- Body of the `while` loop of `erode_ice_cannon` (moonpies.py 1422-1436).
The first argument is `layer + 1`. The test `t > erosion_base` really is on `t`
in the code, not on `layer`. -/
def erodeLoop (fl : K → K) (t base : Int) :
    Nat → K → List K → Except PyErr (List K)
  | 0, _, ice => .ok ice
  | n + 1, ed, ice =>
    if ed > 0 then
      if t > base then
        match ice[n]? with
        | none => .error .indexError
        | some x =>
          let x' := if x ≥ ed then fl (x - ed) else 0
          erodeLoop fl t base n (fl (ed - x)) (ice.set n x')
      else .ok ice
    else .ok ice

/-- `erode_ice_cannon(ice_col, ej_col, t, erosion_depth, ej_shield)`
(moonpies.py 1384-1437), for the `t ≥ 0` it is called with. -/
def erodeIceCannon (fl : K → K) (ice ej : List K) (t : Nat) (ed shield : K) :
    Except PyErr (List K) :=
  erodeLoop fl t (erosionBase ej t shield) (t + 1) ed ice

/-- `remove_ice_overturn(ice_col, ej_col, t, depth, cfg)` (moonpies.py
1351-1381).  `shield` stands for the default argument `ej_shield=0.4` of
`erode_ice_cannon`; `eff` defaults to `1` in the Costello branch. -/
def removeIceOverturn (fl : K → K) (shield : K) (costello : Bool)
    (ice ej : List K) (t : Nat) (depth : K) : Except PyErr (List K) :=
  if costello then gardenIceColumn fl ice ej t depth 1
  else erodeIceCannon fl ice ej t depth shield

/-- `update_ice_col` (moonpies.py 144-183): ballistic sedimentation acts on the
column up to `t - 1`, then overturn acts up to `t`. -/
def updateIceCol (fl : K → K) (shield : K) (costello : Bool)
    (ice ej : List K) (t : Nat) (overturnD bsedD bsedFrac : K) :
    Except PyErr (List K) := do
  let ice ← gardenIceColumn fl ice ej ((t : Int) - 1) bsedD bsedFrac
  removeIceOverturn fl shield costello ice ej t overturnD

/-- One entry of the `strat_cols` dict: `[ice_col, ej_col, ej_src]`
(moonpies.py 137-140). -/
structure StratCol (K : Type) where
  ice : List K
  ej : List K
  src : List String

/-- 2D array indexing `m[t, i]`. -/
def pyGet2 {α : Type} (m : List (List α)) (t i : Nat) : Except PyErr α := do
  let row ← pyGet m t
  pyGet row i

/-- Inner loop of `update_strat_cols` over cold traps (moonpies.py 212-225).
`i` is the index of the first remaining name. -/
def updateTraps (fl : K → K) (shield : K) (costello : Bool)
    (bsedDepth bsedFrac : List (List K)) (t : Nat) (ov : K) :
    Nat → List String → PyDict (StratCol K) → Except PyErr (PyDict (StratCol K))
  | _, [], cols => .ok cols
  | i, name :: rest, cols => do
    let c ← cols.get name
    let d ← pyGet2 bsedDepth t i
    let f ← pyGet2 bsedFrac t i
    let ice ← updateIceCol fl shield costello c.ice c.ej t ov d f
    updateTraps fl shield costello bsedDepth bsedFrac t ov (i + 1) rest
      (cols.set name { c with ice := ice })

/-- Outer loop of `update_strat_cols` over timesteps (moonpies.py 210-226);
`t` is the index of the first remaining overturn entry. -/
def updateStratColsFrom (fl : K → K) (shield : K) (costello : Bool)
    (names : List String) (bsedDepth bsedFrac : List (List K)) :
    Nat → List K → PyDict (StratCol K) → Except PyErr (PyDict (StratCol K))
  | _, [], cols => .ok cols
  | t, ov :: rest, cols => do
    let cols ← updateTraps fl shield costello bsedDepth bsedFrac t ov 0 names cols
    updateStratColsFrom fl shield costello names bsedDepth bsedFrac (t + 1) rest cols

/-- `update_strat_cols(strat_cols, overturn, bsed_depth, bsed_frac, cfg)`
(moonpies.py 186-226). -/
def updateStratCols (fl : K → K) (shield : K) (costello : Bool)
    (names : List String) (cols : PyDict (StratCol K)) (overturn : List K)
    (bsedDepth bsedFrac : List (List K)) : Except PyErr (PyDict (StratCol K)) :=
  updateStratColsFrom fl shield costello names bsedDepth bsedFrac 0 overturn cols

end MoonPIES
