import Verif.Model.Thermal
import Verif.Model.Rounding
import Verif.Model.Bsed
import Mathlib.Data.Int.Log

/-!
# The melt table and its generation

`/repo/moonpies/thermal_eq.py` 18-64 (`make_melt_frac_dfs`, `get_melt_frac_arr`) and 229-239 (the
script), in exact arithmetic.  The generator of seed `s` is the function `draws s` giving the
positions it chooses; all calls with one seed and one number of positions choose the same ones
because every call makes a new generator (thermal_eq.py:219, 226).
-/

namespace MoonPIES

variable {K : Type} [Field K] [LinearOrder K]

/-- A data frame with numbers as labels: row labels, column labels, cells by row; `none` is NaN. -/
structure Frame (K : Type) where
  index : List K
  columns : List K
  cells : List (List (Option K))

/-- `np.mean` of one row of values: NaN (with a warning) when it is empty. -/
def npMean (l : List K) : Option K := if l = [] then none else some (l.sum / (l.length : K))

/-- The mean squared deviation from the mean, the square of `np.std` (no degrees of freedom
subtracted). -/
def npVar (l : List K) : Option K :=
  match npMean l with
  | none => none
  | some m => npMean (l.map (fun x => (x - m) ^ 2))

/-- `np.std`; `root` is the square root. -/
def npStd (root : K → K) (l : List K) : Option K := (npVar l).map root

variable [FloorRing K]

/-- The arguments `melt_frac_teq_1d` is called with (thermal_eq.py:59, 72): the defaults of
thermal_eq.py:79-83. -/
def meltDefaults (ejT : K) : MeltArgs K :=
  { ejectaT := ejT, targetT := 45, meltT := 110, n := 1000, eqThresh := 1, maxIter := 10 ^ 5 }

/-- `melt_frac_teq_1d(mr, ejecta_t, rng=seed)` (thermal_eq.py:59, 72). -/
def meltCall (draws : Nat → Nat → List Nat) (mr ejT : K) (seed : Nat) : Except PyErr K :=
  (meltFracTeq heat1d (meltDefaults ejT) mr (draws seed)).map (·.1)

/-- The buffer a pool returns holds a value everywhere once all chunks are stored; a missing value
would be an object that is not an array, which `np.stack` rejects. -/
def stacked {β : Type} (l : List (Option β)) : Except PyErr (List β) :=
  l.mapM (fun o => match o with
    | some x => .ok x
    | none => .error .valueError)

/-- `get_melt_frac_arr` (thermal_eq.py:49-64) for the melt function `f`: sequential for at most one
CPU, otherwise a pool whose chunks finish in the order `order`. -/
def getMeltArr {S : Type} (f : K → K → S → Except PyErr K) (mrs temps : List K) (seeds : List S)
    (ncpus : Nat) (order : List Nat) : Except PyErr (List (List (List K))) :=
  if ncpus ≤ 1 then meltArrSeq f mrs temps seeds
  else do
    let rows ← meltArrPool f mrs temps seeds ncpus order
    stacked rows

/-- `make_melt_frac_dfs` (thermal_eq.py:18-46) without the files: means and standard deviations
over the seeds `0, ..., nseed - 1`.  `cpus` is `cpu_count()`. -/
def makeMeltFrames (root : K → K) (f : K → K → Nat → Except PyErr K) (mrs temps : List K)
    (nseed : Nat) (parallel : Bool) (cpus : Nat) (order : List Nat) :
    Except PyErr (Frame K × Frame K) := do
  let ncpus := if parallel then cpus else 1
  let arr ← getMeltArr f mrs temps (List.range nseed) ncpus order
  .ok (⟨mrs, temps, arr.map (fun row => row.map npMean)⟩,
    ⟨mrs, temps, arr.map (fun row => row.map (npStd root))⟩)

/-- A number written with `"%g"` and read back (thermal_eq.py:43-44): six significant digits, ties
to even.  `Int.log 10 |x|` is the decimal exponent of the leading digit. -/
def fmtG (x : K) : K :=
  if x = 0 then 0
  else
    let e := Int.log 10 |x|
    (roundHalfEven (x * 10 ^ (5 - e)) : K) / 10 ^ (5 - e)

/-- The saved frame as `read_ballistic_melt_frac` (moonpies.py:443-462) reads it: labels and
cells went through `"%g"`; an empty cell (NaN) has no place in the table of `Bsed` and gives
`none`. -/
def Frame.saved (d : Frame K) : Option (MeltTable K) :=
  match d.cells.mapM (fun row => row.mapM (fun c => c.map fmtG)) with
  | none => none
  | some cells => some ⟨d.columns.map fmtG, (d.index.map fmtG).zip cells⟩

/-- `np.linspace(0, 1, num, endpoint=False)` (thermal_eq.py:233). -/
def openGrid (num : Nat) : List K := (List.range num).map (fun i : Nat => (i : K) * (1 / (num : K)))

/-- `FRACS / (1 - FRACS)` (thermal_eq.py:234); NumPy would give an infinity for a fraction of 1. -/
def fracsToRatios (l : List K) : Except PyErr (List K) :=
  l.mapM (fun f => if 1 - f = 0 then .error .zeroDivisionError else .ok (f / (1 - f)))

/-- The script (thermal_eq.py:233-239), up to the saved file of means. -/
def meltScript (root : K → K) (draws : Nat → Nat → List Nat) (cpus : Nat) (order : List Nat) :
    Except PyErr (Frame K × Frame K) := do
  let mrs ← fracsToRatios (openGrid 40)
  let temps ← linspace 110 510 81
  makeMeltFrames root (meltCall draws) mrs temps 20 true cpus order

end MoonPIES
