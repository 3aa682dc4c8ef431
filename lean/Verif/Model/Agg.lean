import Verif.Model.Plot

/-!
# Aggregated tables of many runs

`/repo/notebooks/figure_scripts/aggregate.py`: `agg_coldtrap` (39-91) on the files of one run
directory, `pickles_to_csv` (94-115), `aggregate` (118-131), `read_agg_dfs` and `flatten_agg_df`
(12-29), `rename_runs` (31-36).  The conversion to `float32` is not modelled.
-/

namespace MoonPIES

variable {K : Type} [Field K] [LinearOrder K]

/-! ## Dictionaries with any kind of key -/

/-- `d[k] = v`. -/
def kset {κ β : Type} [DecidableEq κ] : List (κ × β) → κ → β → List (κ × β)
  | [], k, v => [(k, v)]
  | (k', v') :: rest, k, v => if k' = k then (k, v) :: rest else (k', v') :: kset rest k v

/-- `d.get(k)`. -/
def kget {κ β : Type} [DecidableEq κ] : List (κ × β) → κ → Option β
  | [], _ => none
  | (k', v) :: rest, k => if k' = k then some v else kget rest k

/-- A loop of assignments `d[k] = v`. -/
def kupdate {κ β : Type} [DecidableEq κ] (d : List (κ × β)) (l : List (κ × β)) : List (κ × β) :=
  l.foldl (fun d kv => kset d kv.1 kv.2) d

/-! ## One cold trap -/

/-- `clayers` (aggregate.py:49). -/
structure LayerCols (K : Type) where
  ice : List K
  depth : List K
  time : List K
  deriving DecidableEq, Repr

/-- What one file adds to `clayers` (aggregate.py:58-69): ice and depth of the layers no older than
the formation age, but the times of all layers.  Errors and skipping as in `aggFile`. -/
def fileLayers (df : List (AggRow K)) : Except PyErr (LayerCols K) :=
  match df.filter (fun r => r.label = "Formation age") with
  | [f] =>
    match df.filter (fun r => decide (r.time ≤ f.time)) with
    | [] => .ok ⟨[], [], []⟩
    | r :: rest => .ok ⟨(r :: rest).map (·.ice), (r :: rest).map (·.depth), df.map (·.time)⟩
  | _ => .error .typeError

/-- The loop over the files of one run directory, `clayers` part (aggregate.py:54-69). -/
def dirLayers : List (List (AggRow K)) → LayerCols K → Except PyErr (LayerCols K)
  | [], acc => .ok acc
  | df :: rest, acc => match fileLayers df with
    | .error e => .error e
    | .ok c => dirLayers rest ⟨acc.ice ++ c.ice, acc.depth ++ c.depth, acc.time ++ c.time⟩

/-- The same loop, `cruns` part (aggregate.py:71-81): one entry per file; a skipped file leaves the
zeros the arrays start with. -/
def dirRuns (depths : List K) : List (List (AggRow K)) → Except PyErr (List (AggRun K))
  | [] => .ok []
  | df :: rest => match aggFile depths df with
    | .error e => .error e
    | .ok o => match dirRuns depths rest with
      | .error e => .error e
      | .ok l => .ok (o.getD ⟨0, 0, depths.map (fun _ => 0)⟩ :: l)

/-- `cruns` as a dictionary of arrays (aggregate.py:50-52); a depth comes with its text `f'{d}'`. -/
def runStats (depths : List (String × K)) (l : List (AggRun K)) : List (String × List K) :=
  kupdate (kupdate [] (depths.zipIdx.map (fun d =>
      ("total ice " ++ d.1.1 ++ "m", l.map (fun r => (r.upTo[d.2]?).getD 0)))))
    [("total ice", l.map (·.total)), ("maxdepth", l.map (·.maxdepth))]

/-- `clayers` as a dictionary. -/
def layerStats (c : LayerCols K) : List (String × List K) :=
  [("ice", c.ice), ("depth", c.depth), ("time", c.time)]

/-- The pickled `data` of one cold trap: for each run directory the layer columns and the run
columns. -/
structure AggData (K : Type) where
  layers : List (String × List (String × List K))
  runs : List (String × List (String × List K))
  deriving DecidableEq, Repr

/-- `agg_coldtrap` (aggregate.py:39-91); `dirs` are the run directories with the stratigraphy
files of the cold trap found in them, in the order of `rglob`. -/
def aggColdtrap (depths : List (String × K)) :
    List (String × List (List (AggRow K))) → Except PyErr (AggData K)
  | [] => .ok ⟨[], []⟩
  | (name, files) :: rest =>
    match dirLayers files ⟨[], [], []⟩, dirRuns (depths.map (·.2)) files,
        aggColdtrap depths rest with
    | .ok c, .ok r, .ok d =>
      .ok ⟨(name, layerStats c) :: d.layers, (name, runStats depths r) :: d.runs⟩
    | .error e, _, _ => .error e
    | .ok _, .error e, _ => .error e
    | .ok _, .ok _, .error e => .error e

/-! ## All cold traps -/

/-- `aggregate` (aggregate.py:118-127): each cold trap in its own process, which writes its pickle
if it ends without an exception.  The parent does not look at exit codes, and a pickle that is
already there stays when its process fails. -/
def aggregateAll (compute : String → Except PyErr (AggData K)) (traps : List String)
    (pickles : List (String × AggData K)) : List (String × AggData K) :=
  traps.foldl (fun p t => match compute t with
    | .ok d => kset p t d
    | .error _ => p) pickles

/-- Column name of the aggregated tables: cold trap, run directory, statistic. -/
abbrev AggKey := String × String × String

/-- The columns contributed by one pickle. -/
def pickleCols (ct : String) (d : List (String × List (String × List K))) : List (AggKey × List K) :=
  d.flatMap (fun run => run.2.map (fun st => ((ct, run.1, st.1), st.2)))

/-- `layers` of `pickles_to_csv` (aggregate.py:101-109); a `DataFrame` of columns of different
length, padded with NaN. -/
def layersTable (pickles : List (String × AggData K)) : List (AggKey × List K) :=
  kupdate [] (pickles.flatMap (fun p => pickleCols p.1 p.2.layers))

/-- `runs` of `pickles_to_csv` (aggregate.py:110-112). -/
def runsTable (pickles : List (String × AggData K)) : List (AggKey × List K) :=
  kupdate [] (pickles.flatMap (fun p => pickleCols p.1 p.2.runs))

/-- A row of a flattened table; `none` is NaN. -/
structure FlatRow (K : Type) where
  coldtrap : String
  runs : String
  vals : List (Option K)
  deriving DecidableEq, Repr

/-- Number of rows of a table. -/
def tableLen (t : List (AggKey × List K)) : Nat := t.foldl (fun n c => max n c.2.length) 0

/-- The entry of a column in row `j`. -/
def cell (t : List (AggKey × List K)) (k : AggKey) (j : Nat) : Option K :=
  (kget t k).bind (fun col => col[j]?)

/-- `flatten_agg_df` (aggregate.py:25-29): one row per table row, cold trap and run directory, with
the values of the statistics; rows without any value are dropped by `stack`.  `pairs` are the
pairs of cold trap and run directory in the order `stack` puts them. -/
def flattenAgg (stats : List String) (pairs : List (String × String)) (t : List (AggKey × List K)) :
    List (FlatRow K) :=
  (List.range (tableLen t)).flatMap (fun j => pairs.filterMap (fun p =>
    let vals := stats.map (fun s => cell t (p.1, p.2, s) j)
    if vals.all (·.isNone) then none else some ⟨p.1, p.2, vals⟩))

/-- `rename_runs` (aggregate.py:31-36): keep the rows of the named runs, then rename one name after
the other in place; `zip` stops at the shorter list. -/
def renameRuns {R : Type} (runNames newNames : List String) (df : List (String × R)) :
    List (String × R) :=
  (runNames.zip newNames).foldl
    (fun df nn => df.map (fun r => if r.1 = nn.1 then (nn.2, r.2) else r))
    (df.filter (fun r => r.1 ∈ runNames))

end MoonPIES
