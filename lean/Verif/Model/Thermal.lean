import Verif.Model.TimeArray

/-!
# Melting by warm ejecta: the one-dimensional conduction model

`/repo/moonpies/thermal_eq.py` 18-221, in exact arithmetic.  The random positions drawn by
`rng.choice` are an argument.
-/

namespace MoonPIES

variable {K : Type} [Field K] [LinearOrder K]

/-- `thermal_conductivity` (thermal_eq.py:195-197) with its default arguments. -/
def thermalConductivity (T : K) : K := (34 / 10000) * (1 + (27 / 10) * (T / 350) ^ 3)

/-- `sphc` (thermal_eq.py:200-202) with its default arguments. -/
def sphc (T : K) : K :=
  -(36125 / 10000) + (27431 / 10000) * T + (23616 / 10000000) * T ^ 2 - (1234 / 100000000) * T ^ 3 +
    (89093 / 10000000000000) * T ^ 4

/-- `thermal_diffusivity` (thermal_eq.py:190-192).  NumPy only warns when `cp` is 0 and goes on
with an infinity; that is outside the model and raises here. -/
def thermalDiffusivity (conductivity cp density : K) : Except PyErr K :=
  if density * cp = 0 then .error .zeroDivisionError else .ok (conductivity / (density * cp))

/-- Finite difference coefficient of one element (thermal_eq.py:174-175) for the default density,
time step and spacing. -/
def heatCoeff (T : K) : Except PyErr K :=
  (thermalDiffusivity (thermalConductivity T) (sphc T) 1800).map
    (fun k => (k * (1 / 1000)) / (1 / 100000) ^ 2)

/-- New temperature of an element with coefficient `c` between `a` and `b`. -/
def heatUpdate (c a t b : K) : K := c * a + (1 - 2 * c) * t + c * b

/-- `heat1d_finite_diff` (thermal_eq.py:153-187): the new inner elements are computed from the old
array, the two ends are linked.  Arrays shorter than two elements raise `IndexError` (`T[1]`). -/
def heat1d (T : List K) : Except PyErr (List K) := do
  let c ← T.mapM heatCoeff
  let c0 ← pyGet c 0
  let cn ← pyGet c (c.length - 1)
  let first ← pyGet T 0
  let second ← pyGet T 1
  let last ← pyGet T (T.length - 1)
  let penult ← pyGet T (T.length - 2)
  let t0 := heatUpdate c0 last first second
  let tn := heatUpdate cn penult last first
  let inner := List.zipWith (fun c w => heatUpdate c w.1 w.2.1 w.2.2) (c.drop 1)
    (T.zip ((T.drop 1).zip (T.drop 2)))
  .ok (t0 :: inner ++ [tn])

/-- `np.diff`. -/
def npDiff : List K → List K
  | a :: b :: rest => (b - a) :: npDiff (b :: rest)
  | _ => []

/-- The `while` condition of `melt_frac_teq_1d` (thermal_eq.py:129-136) apart from the count. -/
def keepHeating (meltT eqThresh : K) (temps : List K) (melted : List Bool) : Bool :=
  !melted.all id && !temps.all (fun t => decide (t < meltT)) &&
    !(npDiff temps).all (fun d => decide (|d| < eqThresh))

/-- `melted[temps >= melt_t] = True` (thermal_eq.py:141). -/
def markMelted (meltT : K) (temps : List K) (melted : List Bool) : List Bool :=
  List.zipWith (fun t m => m || decide (meltT ≤ t)) temps melted

/-- The `while` loop of `melt_frac_teq_1d` (thermal_eq.py:128-142): `fuel` is `max_iter - i`, the
result holds the last `melted` array and the number of steps taken.  `heat` is one step of the
conduction model. -/
def meltLoop (heat : List K → Except PyErr (List K)) (meltT eqThresh : K) :
    Nat → List K → List Bool → Except PyErr (List Bool × Nat)
  | 0, _, melted => .ok (melted, 0)
  | fuel + 1, temps, melted =>
    if keepHeating meltT eqThresh temps melted then
      match heat temps with
      | .error e => .error e
      | .ok temps' =>
        match meltLoop heat meltT eqThresh fuel temps' (markMelted meltT temps' melted) with
        | .error e => .error e
        | .ok (m, i) => .ok (m, i + 1)
    else .ok (melted, 0)

/-- Arguments of `melt_frac_teq_1d` besides the mixing ratio and the generator. -/
structure MeltArgs (K : Type) where
  ejectaT : K
  targetT : K
  meltT : K
  n : Nat
  eqThresh : K
  maxIter : Nat

variable [FloorRing K]

/-- Number of ejecta elements (thermal_eq.py:118). -/
def ejectaCount (n : Nat) (mr : K) : Except PyErr Int :=
  if 1 + mr = 0 then .error .zeroDivisionError else .ok (pyInt ((n : K) * (1 / (1 + mr))))

/-- `melt_frac_teq_1d` (thermal_eq.py:76-150): the fraction and the number of steps.  `draw k` are
the `k` positions chosen by the generator; `rng.choice` raises `ValueError` unless `0 ≤ k ≤ n`. -/
def meltFracTeq (heat : List K → Except PyErr (List K)) (a : MeltArgs K) (mr : K)
    (draw : Nat → List Nat) : Except PyErr (K × Nat) := do
  let ejN ← ejectaCount a.n mr
  if ejN = a.n then .ok (if a.meltT ≤ a.ejectaT then 1 else 0, 0)
  else if ejN < 0 ∨ (a.n : Int) < ejN then .error .valueError
  else
    let inds := draw ejN.toNat
    let temps := (List.range a.n).map (fun i => if i ∈ inds then a.ejectaT else a.targetT)
    let melted := (List.range a.n).map (fun i => decide (i ∈ inds))
    let r ← meltLoop heat a.meltT a.eqThresh a.maxIter temps melted
    let total : K := (r.1.countP id : K) - (ejN.toNat : K)
    .ok (total / ((a.n : K) - (ejN.toNat : K)), r.2)

/-! ## The table of melt fractions -/

/-- `_parallel_melt_frac` (thermal_eq.py:67-73) for the melt function `f mr temp seed`. -/
def meltRow {S : Type} (f : K → K → S → Except PyErr K) (temps : List K) (seeds : List S) (mr : K) :
    Except PyErr (List (List K)) :=
  temps.mapM (fun t => seeds.mapM (fun s => f mr t s))

/-- `np.stack`: an empty list raises `ValueError` (all rows have the same shape here). -/
def npStack {β : Type} (l : List β) : Except PyErr (List β) :=
  if l = [] then .error .valueError else .ok l

end MoonPIES

namespace MoonPIES

/-- Chunk size of `Pool.starmap` for `len` tasks and `ncpus` workers (CPython's
`Pool._map_async`): `divmod(len, ncpus * 4)`, rounded up. -/
def chunkSize (len ncpus : Nat) : Nat :=
  let q := len / (ncpus * 4)
  if len % (ncpus * 4) = 0 then q else q + 1

/-- The parent stores the results of a finished chunk: `value[i*s:(i+1)*s] = result`. -/
def storeChunk {β : Type} (buf : List (Option β)) (i s : Nat) (res : List β) : List (Option β) :=
  buf.take (i * s) ++ res.map some ++ buf.drop (i * s + res.length)

/-- What a worker returns for chunk `i`: the results of its tasks, or the first exception. -/
def runChunk {α β : Type} (f : α → Except PyErr β) (args : List α) (s i : Nat) :
    Except PyErr (List β) :=
  ((args.drop (i * s)).take s).mapM f

/-- The parent collects finished chunks in the order `order`; an exception is kept and raised at
the end. -/
def collectChunks {α β : Type} (f : α → Except PyErr β) (args : List α) (s : Nat) :
    List Nat → List (Option β) → Option PyErr → List (Option β) × Option PyErr
  | [], buf, err => (buf, err)
  | i :: rest, buf, err => match runChunk f args s i with
    | .ok res => collectChunks f args s rest (storeChunk buf i s res) err
    | .error e => collectChunks f args s rest buf (match err with
        | none => some e
        | some e' => some e')

/-- `pool.starmap(f, args)`: `order` is the order in which the chunks finish. -/
def starmap {α β : Type} (f : α → Except PyErr β) (args : List α) (ncpus : Nat) (order : List Nat) :
    Except PyErr (List (Option β)) :=
  match collectChunks f args (chunkSize args.length ncpus) order (List.replicate args.length none) none with
  | (_, some e) => .error e
  | (buf, none) => .ok buf

variable {K : Type} [Field K] [LinearOrder K] [FloorRing K]

/-- `get_melt_frac_arr` (thermal_eq.py:49-64) run sequentially. -/
def meltArrSeq {S : Type} (f : K → K → S → Except PyErr K) (mrs temps : List K) (seeds : List S) :
    Except PyErr (List (List (List K))) :=
  mrs.mapM (fun mr => temps.mapM (fun t => seeds.mapM (fun s => f mr t s)))

/-- `get_melt_frac_arr` (thermal_eq.py:49-64) in a pool of `ncpus` workers whose chunks finish in
the order `order`. -/
def meltArrPool {S : Type} (f : K → K → S → Except PyErr K) (mrs temps : List K) (seeds : List S)
    (ncpus : Nat) (order : List Nat) : Except PyErr (List (Option (List (List K)))) := do
  let rows ← starmap (meltRow f temps seeds) mrs ncpus order
  npStack rows

end MoonPIES
