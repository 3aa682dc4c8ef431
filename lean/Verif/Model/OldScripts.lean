import Verif.Model.Files
import Verif.Model.Strat
import Mathlib.Data.Real.Basic

/-!
# Two older scripts that read the files of many runs

`/repo/notebooks/figure_scripts/older_scripts/find_recent_layer.py` and `ensemble_plot.py` in the same
directory.  A file holds a table; a column holds numbers (`none` is NaN) or texts, as `read_csv` finds
them.  Drawing is left out: what is modelled is the numbers handed to it.
-/

namespace MoonPIES

/-- A column of a csv file. -/
inductive CsvCol where
  | nums (l : List (Option ℝ))
  | texts (l : List String)

/-- A csv file: header and column, in order. -/
abbrev CsvTable := List (String × CsvCol)

/-- A stratigraphy table as it is saved (moonpies.py:2586-2589, 2595-2602, 2672, 2695): the columns
stand in the order in which `agg`, and then `depth` and `icepct`, made them. -/
def stratCsv (rows : List (StratRow ℝ)) : CsvTable :=
  [("ice", .nums (rows.map fun r => some r.ice)), ("ejecta", .nums (rows.map fun r => some r.ejecta)),
   ("label", .texts (rows.map fun r => r.label)), ("time", .nums (rows.map fun r => some r.time)),
   ("depth", .nums (rows.map fun r => some r.depth)), ("icepct", .nums (rows.map fun r => r.icepct))]

/-- The saved table of ice columns (moonpies.py:2617, 2627, 2637, 2675). -/
def iceCsv (time : List ℝ) (ice : List (String × List ℝ)) : CsvTable :=
  ("time", .nums (time.map some)) :: ice.map fun c => (c.1, .nums (c.2.map some))

/-- Opening a file for `read_csv`: a missing file raises `FileNotFoundError`, one without content
`EmptyDataError`, a `ValueError`. -/
def openCsv (fs : FS CsvTable) (l : Loc) : Except PyErr CsvTable :=
  match fs.file l with
  | none => .error .osError
  | some none => .error .valueError
  | some (some t) => .ok t

/-! ## `find_recent_layer.py` -/

/-- `col_names_new[1:]` (find_recent_layer.py:24). -/
def recentTraps : List String := ["Cabeus B", "Idel'son L", "Amundsen", "Wiechert J", "Cabeus",
  "Faustini", "Haworth", "Shoemaker", "Slater", "Sverdrup", "de Gerlache", "Shackleton"]

/-- `col_names` (find_recent_layer.py:33). -/
def recentCols : List String := ["label", "time", "ice", "ejecta", "depth", "icepct"]

/-- `pd.read_csv(..., names=col_names, header=0)` (find_recent_layer.py:46): the names replace those
of the file, in order.  Missing columns are full of NaN; of a file with more columns the first ones
become the index. -/
def recentRead (t : CsvTable) : List (String × CsvCol) :=
  let n := match t.head? with
    | some (_, .nums l) => l.length
    | some (_, .texts l) => l.length
    | none => 0
  recentCols.zip ((t.map (·.2)).drop (t.length - recentCols.length) ++
    List.replicate (recentCols.length - t.length) (.nums (List.replicate n none)))

/-- `df.name` for one of the columns. -/
def recentCol (df : List (String × CsvCol)) (name : String) : Except PyErr CsvCol :=
  match df.find? (fun c => c.1 == name) with
  | some c => .ok c.2
  | none => .error .attributeError

/-- `col > 0` (find_recent_layer.py:47): false for NaN; a text is not comparable with a number. -/
noncomputable def gtZero : CsvCol → Except PyErr (List Bool)
  | .nums l => .ok (l.map fun x => match x with
      | some v => decide (0 < v)
      | none => false)
  | .texts [] => .ok []
  | .texts (_ :: _) => .error .typeError

/-- The elements where the mask holds, `df[mask]`. -/
def maskSel {α : Type} (m : List Bool) (l : List α) : List α :=
  (m.zip l).filterMap fun p => if p.1 then some p.2 else none

/-- `depths[i,j] = df_ice.depth.iloc[-1]` (find_recent_layer.py:47-48): no rows raise `IndexError`, a
text that is no number `ValueError`. -/
noncomputable def recentDepth (t : CsvTable) : Except PyErr (Option ℝ) := do
  let m ← gtZero (← recentCol (recentRead t) "ice")
  match ← recentCol (recentRead t) "depth" with
  | .nums l => match (maskSel m l).getLast? with
    | some x => .ok x
    | none => .error .indexError
  | .texts l => match (maskSel m l).getLast? with
    | some _ => .error .valueError
    | none => .error .indexError

/-- The loops of find_recent_layer.py:43-48 over the directories of the runs. -/
noncomputable def recentDepths (fs : FS CsvTable) (dirs : List Loc) :
    Except PyErr (List (List (Option ℝ))) :=
  dirs.mapM fun d => recentTraps.mapM fun t => do
    recentDepth (← openCsv fs (d ++ [t.toList ++ "_strat.csv".toList]))

/-! ## `ensemble_plot.py` -/

/-- A name matches `ice_columns_*.csv` (ensemble_plot.py:36). -/
def ensembleName (n : Str) : Bool :=
  "ice_columns_".toList.isPrefixOf n && ".csv".toList.isSuffixOf (n.drop 12)

/-- `data_dir.rglob('ice_columns_*.csv')` finds a file (ensemble_plot.py:36). -/
def EnsembleFinds (fs : FS CsvTable) (root l : Loc) : Prop :=
  root <+: l.dropLast ∧ (∃ n, l.getLast? = some n ∧ ensembleName n = true) ∧ fs.file l ≠ none

/-- One of the two columns of `pd.read_csv(csv, usecols=[0, col])` (ensemble_plot.py:12, 39): a
position that the file does not have raises `ValueError`. -/
def useCol (t : CsvTable) (i : Nat) : Except PyErr CsvCol :=
  match t[i]? with
  | some c => .ok c.2
  | none => .error .valueError

/-- `time/1e9` and the heights handed to `plot` (ensemble_plot.py:39-40); texts raise. -/
noncomputable def ensembleCurve (t : CsvTable) : Except PyErr (List (Option ℝ) × List (Option ℝ)) := do
  match ← useCol t 0, ← useCol t 2 with
  | .nums a, .nums b => .ok (a, b)
  | _, _ => .error .typeError

/-- Python's `max` over the times of the last file (ensemble_plot.py:53): of no values it raises
`ValueError`.  A time that is NaN, which no run writes, is simplified to an error here. -/
noncomputable def ensembleLeft : List (Option ℝ) → Except PyErr ℝ
  | [] => .error .valueError
  | x :: l => l.foldl (fun acc y => do
      let a ← acc
      match y with
      | some v => .ok (max a v)
      | none => .error .valueError)
      (match x with
        | some v => .ok v
        | none => .error .valueError)

/-- The script from the files found on (ensemble_plot.py:38-54): without files it quits (`none`), else
the curves and the left end of the axis, taken from the last file read. -/
noncomputable def ensemblePlot (fs : FS CsvTable) (csvs : List Loc) :
    Except PyErr (Option (List (List (Option ℝ) × List (Option ℝ)) × ℝ)) := do
  let cs ← csvs.mapM fun l => do ensembleCurve (← openCsv fs l)
  match cs.getLast? with
  | none => .ok none
  | some c =>
    let m ← ensembleLeft c.1
    .ok (some (cs.map (fun c => (c.1.map (Option.map (· / 1000000000)), c.2)), m / 1000000000))

end MoonPIES
