import Verif.Model.Basic
import Verif.Model.AgesToTime

/-!
# Ballistic sedimentation

`/repo/moonpies/moonpies.py` 1137-1218, 1256-1307.  Matrices are kept as one list per cold
trap; NaN is `none`.
-/

namespace MoonPIES

variable {K : Type} [Field K] [LinearOrder K]

/-- The entry at position `a` with its position, if it is there and not NaN. -/
def knownAt (l : List (Option K)) (a : Nat) : Option (Nat × K) :=
  match l[a]? with
  | some (some v) => some (a, v)
  | _ => none

/-- Last known entry at or before position `i`. -/
def prevKnown (l : List (Option K)) (i : Nat) : Option (Nat × K) :=
  (List.range (i + 1)).reverse.findSome? (knownAt l)

/-- First known entry at or after position `i`. -/
def nextKnown (l : List (Option K)) (i : Nat) : Option (Nat × K) :=
  (List.range' i (l.length - i)).findSome? (knownAt l)

/-- pandas `interpolate` with its defaults along one row or column: linear in the
*position* (the labels are ignored), forward only, so leading NaN stay and trailing NaN
take the last value. -/
def posInterp (l : List (Option K)) : List (Option K) :=
  l.mapIdx (fun i _ => match prevKnown l i, nextKnown l i with
    | some (a, v), some (b, w) =>
      if a = b then some v else some (v + (w - v) * (((i : K) - a) / ((b : K) - a)))
    | some (_, v), none => some v
    | none, _ => none)

/-- The melt table (`read_ballistic_melt_frac`, moonpies.py:443-462): column labels
(temperatures), and rows labelled by mixing ratio.  Labels are taken to be unique (pandas
`reindex` raises otherwise). -/
structure MeltTable (K : Type) where
  temps : List K
  rows : List (K × List K)

/-- Entry of the reindexed table: NaN unless both labels are in the file. -/
def MeltTable.at (tbl : MeltTable K) (m t : K) : Option K :=
  match tbl.rows.find? (fun r => decide (r.1 = m)) with
  | none => none
  | some r => ((tbl.temps.zip r.2).find? (fun c => decide (c.1 = t))).map (·.2)

/-- Insert into an ascending list without repeats. -/
def insertU (x : K) : List K → List K
  | [] => [x]
  | y :: ys => if x < y then x :: y :: ys else if x = y then y :: ys else y :: insertU x ys

/-- `np.sort(np.unique(...))`. -/
def sortUnique (l : List K) : List K := l.foldr insertU []

/-- `insert_unique_in_range` (moonpies.py:1157-1163); `min` of an empty array raises. -/
def insertUniqueInRange (src : List (Option K)) (target : List K) : Except PyErr (List K) :=
  match target with
  | [] => .error .valueError
  | x :: xs =>
    let lo := xs.foldl min x
    let hi := xs.foldl max x
    let uniq := (src.filterMap id).filter (fun s => decide (lo < s) && decide (s < hi))
    .ok (sortUnique (target ++ uniq))

/-- `minterp` (moonpies.py:1168-1169): rows follow `mrs`, columns `temps`. -/
def meltInterp (tbl : MeltTable K) (mrs temps : List K) : List (List (Option K)) :=
  let cols := temps.map (fun t => posInterp (mrs.map (fun m => tbl.at m t)))
  (List.range mrs.length).map (fun i => posInterp (cols.map (fun c => (c[i]?).join)))

/-- `minterp.loc[m, t]`, `KeyError` when a label is missing. -/
def meltLoc (grid : List (List (Option K))) (mrs temps : List K) (m t : K) :
    Except PyErr (Option K) :=
  match grid[mrs.idxOf m]?, mrs.contains m, temps.contains t with
  | some row, true, true => match row[temps.idxOf t]? with
    | some v => .ok v
    | none => .error .keyError
  | _, _, _ => .error .keyError

/-- `get_melt_frac` (moonpies.py:1137-1177): queries are (temperature, mixing ratio) pairs,
one list per cold trap; pairs with a missing ratio give 0. -/
def getMeltFrac (tbl : MeltTable K) (queries : List (List (K × Option K))) :
    Except PyErr (List (List (Option K))) := do
  let temps ← insertUniqueInRange (queries.flatten.map (fun q => some q.1)) tbl.temps
  let mrs ← insertUniqueInRange (queries.flatten.map (fun q => q.2)) (tbl.rows.map (·.1))
  let grid := meltInterp tbl mrs temps
  queries.mapM (fun col => col.mapM (fun q => match q.2 with
    | none => .ok (some 0)
    | some m => meltLoc grid mrs temps m q.1))

/-- Fields read by the ballistic sedimentation module (config.py:172-190). -/
structure BsedCfg (K : Type) where
  ballistic_sed : Bool
  ballistic_sed_frac_lost : K
  polar_ejecta_temp_init : K
  basin_ejecta_temp_warm : Bool
  basin_ejecta_temp_init_warm : K
  basin_ejecta_temp_init_cold : K
  rtol : K

/-- `ejecta_temp` (moonpies.py:1185-1218): one temperature per crater (all traps alike). -/
def ejectaTemp (cfg : BsedCfg K) (isbasin : List Bool) : List K :=
  let basin := if cfg.basin_ejecta_temp_warm then cfg.basin_ejecta_temp_init_warm
    else cfg.basin_ejecta_temp_init_cold
  isbasin.map (fun b => if b then basin else cfg.polar_ejecta_temp_init)

/-- One trap of the second half of `get_bsed_depth` (moonpies.py:1299-1306). -/
def bsedColumn (cfg : BsedCfg K) (time ages : List K) (thick : List K) (ratios melts : List (Option K)) :
    Except PyErr (List K × List K) := do
  let thickT ← ages2time cfg.rtol time (ages.zip (thick.map some)) nansum 0
  let ratioT ← ages2time cfg.rtol time (ages.zip ratios) nanmax 0
  let meltT ← ages2time cfg.rtol time (ages.zip melts) nanmax 0
  .ok (List.zipWith (· * ·) thickT ratioT, meltT.map (fun m => m * cfg.ballistic_sed_frac_lost))

/-- `get_bsed_depth` (moonpies.py:1256-1307): per cold trap the depths and melt fractions at
each time.  `mr` is `get_mixing_ratio_oberbeck`; each trap comes with its distance column
and its ejecta thickness column. -/
def bsedDepth (cfg : BsedCfg K) (tbl : MeltTable K) (mr : Option K → Option K) (time : List K)
    (ages : List K) (isbasin : List Bool) (traps : List (List (Option K) × List K)) :
    Except PyErr (List (List K × List K)) :=
  if ¬ cfg.ballistic_sed then
    .ok (traps.map (fun _ => (time.map (fun _ => 0), time.map (fun _ => 0))))
  else do
    let temps := ejectaTemp cfg isbasin
    let melts ← getMeltFrac tbl (traps.map (fun tr => temps.zip (tr.1.map mr)))
    (traps.zip melts).mapM (fun p => bsedColumn cfg time ages p.1.2 (p.1.1.map mr) p.2)

end MoonPIES
