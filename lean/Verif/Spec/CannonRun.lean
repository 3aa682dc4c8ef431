import Mathlib.Algebra.Order.Field.Basic

/-!
# A cold trap in a run that reproduces Cannon et al. (2020)

A pile of ice, the youngest layer first: every timestep puts a layer on top and then takes a fixed depth
off the top, unless ejecta thick enough to shield the ice landed with it.
-/

namespace MoonPIES.Spec

variable {K : Type} [Field K] [LinearOrder K]

/-- Take `ed` metres of ice off the top of a pile; layers eaten whole stay as empty layers. -/
def eat : K → List K → List K
  | _, [] => []
  | ed, x :: xs => if ed ≤ x then (x - ed) :: xs else 0 :: eat (ed - x) xs

/-- A pile after timesteps with the given ice and ejecta. -/
def pile (shield ed : K) : List K → List (K × K) → List K
  | st, [] => st
  | st, (y, e) :: r => pile shield ed (if e ≤ shield then eat ed (y :: st) else y :: st) r

/-- The ice in a pile: what is there and what arrives, less what is taken while there is any. -/
def pileSum (shield ed : K) : K → List (K × K) → K
  | s, [] => s
  | s, (y, e) :: r => pileSum shield ed (if e ≤ shield then max 0 (s + y - ed) else s + y) r

/-- What a layer keeps when each brings more than is taken from it. -/
def keeps (shield ed : K) (p : K × K) : K := if p.2 ≤ shield then p.1 - ed else p.1

end MoonPIES.Spec
