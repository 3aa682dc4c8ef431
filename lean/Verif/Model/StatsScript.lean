import Verif.Model.Config
import Mathlib.Analysis.SpecialFunctions.Pow.Real
import Mathlib.Algebra.BigOperators.Group.List.Basic

/-!
# Bulk statistics of ensemble runs

`/repo/notebooks/figure_scripts/older_scripts/moonPIES_stats.py`.  The files of the runs are values
here; a file is the list of its columns (time first).  The calls of `mp.plot_version`, a function that
the package no longer has, are left out.
-/

namespace MoonPIES

/-- `col_names` (moonPIES_stats.py:38). -/
def statsCols : List String := ["time", "Haworth", "Shoemaker", "Faustini", "Shackleton", "Slater",
  "Amundsen", "Cabeus", "Sverdrup", "de Gerlache", "Idel'son L", "Wiechert J", "Cabeus B"]

/-- `col_names_new` (moonPIES_stats.py:40). -/
def statsColsNew : List String := ["time", "Cabeus B", "Idel'son L", "Amundsen", "Wiechert J",
  "Cabeus", "Faustini", "Haworth", "Shoemaker", "Slater", "Sverdrup", "de Gerlache", "Shackleton"]

/-- `pd.read_csv(dir+fn, names=col_names, header=0)` (moonPIES_stats.py:51): the names replace those
of the file, in order.  Columns that the file does not have are full of NaN, which sums skip (here:
empty).  Of a file with more columns the first ones become the index. -/
def statsRead (file : List (List ℝ)) : List (String × List ℝ) :=
  statsCols.zip (file.drop (file.length - statsCols.length) ++
    List.replicate (statsCols.length - file.length) [])

/-- One name of `df[names]` (moonPIES_stats.py:52). -/
def framePick (df : List (String × List ℝ)) (name : String) : Except PyErr (String × List ℝ) :=
  match df.find? (fun c => c.1 == name) with
  | some c => .ok c
  | none => .error .keyError

/-- One row of `net_ice` (moonPIES_stats.py:51-53). -/
noncomputable def netIceRow (file : List (List ℝ)) : Except PyErr (List ℝ) := do
  let df ← statsColsNew.mapM (framePick (statsRead file))
  .ok ((df.filter fun c => c.1 != "time").map fun c => c.2.sum)

/-- `net_ice` (moonPIES_stats.py:44-53). -/
noncomputable def netIce (files : List (List (List ℝ))) : Except PyErr (List (List ℝ)) :=
  files.mapM netIceRow

/-- `net_ice[:, i]`. -/
def netCol (net : List (List ℝ)) (i : Nat) : Except PyErr (List ℝ) :=
  net.mapM fun r => match r[i]? with
    | some x => .ok x
    | none => .error .indexError

/-- A row of `stat_df`. -/
structure StatRow where
  label : String
  mean : ℝ
  max : ℝ
  min : ℝ
  sd : ℝ
  se : ℝ

/-- `np.mean`. -/
noncomputable def meanR (l : List ℝ) : ℝ := l.sum / l.length

/-- `np.std`. -/
noncomputable def stdR (l : List ℝ) : ℝ :=
  Real.sqrt (meanR (l.map fun x => (x - meanR l) ^ 2))

/-- `stats_data[i,:]` (moonPIES_stats.py:57): the largest of no values raises `ValueError`. -/
noncomputable def statRow (label : String) : List ℝ → Except PyErr StatRow
  | [] => .error .valueError
  | x :: l => .ok
      { label := label
        mean := meanR (x :: l)
        max := l.foldl Max.max x
        min := l.foldl Min.min x
        sd := stdR (x :: l)
        se := stdR (x :: l) / Real.sqrt ((x :: l).length) }

/-- `stat_df` (moonPIES_stats.py:56-60). -/
noncomputable def statTable (net : List (List ℝ)) : Except PyErr (List StatRow) :=
  (statsCols.drop 1).zipIdx.mapM fun p => do
    let col ← netCol net p.2
    statRow p.1 col

/-- A box, bar or violin: place, tick, data, mean and standard deviation. -/
structure StatMark where
  x : ℝ
  tick : String
  data : List ℝ
  mean : Option ℝ
  sd : Option ℝ

structure StatFigs where
  table : List StatRow
  boxes : List StatMark
  boxLim : ℝ × ℝ
  bars : List StatMark
  violins : List StatMark

/-- The columns of `net_ice` as drawn by `boxplot` and `violinplot`. -/
def netCols (net : List (List ℝ)) : Except PyErr (List (List ℝ)) :=
  (List.range 12).mapM (netCol net)

/-- The script (moonPIES_stats.py:30-106): boxes and violins stand at 1, 2, …, bars at 0, 1, …; all
ticks are named after `col_names_new`. -/
noncomputable def statsScript (files : List (List (List ℝ))) : Except PyErr StatFigs := do
  let net ← netIce files
  let table ← statTable net
  let cols ← netCols net
  let ticks := statsColsNew.drop 1
  .ok
    { table := table
      boxes := (cols.zip ticks).zipIdx.map fun p =>
        { x := (p.2 : ℝ) + 1, tick := p.1.2, data := p.1.1, mean := none, sd := none }
      boxLim := (4.5, 12.5)
      bars := (table.zip ticks).zipIdx.map fun p =>
        { x := p.2, tick := p.1.2, data := [], mean := some p.1.1.mean, sd := some p.1.1.sd }
      violins := ((cols.zip table).zip ticks).zipIdx.map fun p =>
        { x := (p.2 : ℝ) + 1, tick := p.1.2, data := p.1.1.1, mean := some p.1.1.2.mean, sd := none } }

end MoonPIES
