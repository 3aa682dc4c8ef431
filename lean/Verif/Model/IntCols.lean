import Mathlib.Algebra.Order.Floor.Ring
import Verif.Model.Column

/-!
# Columns of whole numbers

The tests call the functions of `Model/Column` with integer arrays, such as `np.array([1, 1])`
(test_moonpies.py 296-364, 462-497).  Numpy computes with single entries in floating point as usual, here
exactly, but storing a number in an integer array cuts off its fraction.
-/

namespace MoonPIES

variable {K : Type} [Field K] [LinearOrder K] [FloorRing K]

/-- Storing a number in an integer array: rounding towards zero. -/
def storeInt (x : K) : ℤ := if 0 ≤ x then ⌊x⌋ else ⌈x⌉

/-- `garden_ice_column` on integer arrays (moonpies.py 1469-1483). -/
def gardenIntLoop (ej : List ℤ) (depth eff : K) : Nat → K → List ℤ → Except PyErr (List ℤ)
  | 0, _, ice => .ok ice
  | n + 1, d, ice =>
    if d < depth then
      if n % 2 = 1 then
        match ej[n / 2]? with
        | none => .error .indexError
        | some e => gardenIntLoop ej depth eff n (d + (e : K)) ice
      else
        match ice[n / 2]? with
        | none => .error .indexError
        | some x =>
          let removed := (x : K) * eff
          let removed := if d + removed > depth then depth - d else removed
          let x' := storeInt ((x : K) - removed)
          gardenIntLoop ej depth eff n (d + (x' : K)) (ice.set (n / 2) x')
    else .ok ice

/-- `garden_ice_column` on integer arrays (moonpies.py 1440-1484). -/
def gardenIntColumn (ice ej : List ℤ) (t : Int) (depth eff : K) : Except PyErr (List ℤ) :=
  gardenIntLoop ej depth eff (2 * t + 2).toNat 0 ice

/-- Loop of `erode_ice_cannon` on an integer array of ice (moonpies.py 1422-1436). -/
def erodeIntLoop (t base : Int) : Nat → K → List ℤ → Except PyErr (List ℤ)
  | 0, _, ice => .ok ice
  | n + 1, ed, ice =>
    if ed > 0 then
      if t > base then
        match ice[n]? with
        | none => .error .indexError
        | some x =>
          let x' := if (x : K) ≥ ed then storeInt ((x : K) - ed) else 0
          erodeIntLoop t base n (ed - (x : K)) (ice.set n x')
      else .ok ice
    else .ok ice

/-- `erode_ice_cannon` on an integer array of ice (moonpies.py 1384-1437). -/
def erodeIntCannon (ice : List ℤ) (ej : List K) (t : Nat) (ed shield : K) : Except PyErr (List ℤ) :=
  erodeIntLoop t (erosionBase ej t shield) (t + 1) ed ice

end MoonPIES
