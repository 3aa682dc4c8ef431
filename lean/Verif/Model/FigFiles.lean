import Verif.Model.Basic
import Verif.Model.PosixPath

/-!
# Where figures are saved and where their data comes from

`_save_or_show`, `_get_datedir` and `_load_aggregated`
(notebooks/figure_scripts/plot_figs.py:27-74) and the default file names of the figure functions,
with the part of `pathlib` they use (CPython up to 3.13).
-/

namespace MoonPIES

/-- A `pathlib.PosixPath`: its root (none, one or two slashes) and its parts. -/
structure PurePath where
  root : Str
  parts : List Str
deriving DecidableEq, Repr

/-- `Path(s)`: repeated slashes and single dots disappear. -/
def parsePath (s : Str) : PurePath :=
  ⟨List.replicate (initialSlashes s) '/',
    (splitSlash s).filter (fun c => decide (c ≠ [] ∧ c ≠ ['.']))⟩

/-- `a / b`. -/
def PurePath.join (a b : PurePath) : PurePath :=
  if b.root = [] then ⟨a.root, a.parts ++ b.parts⟩ else b

/-- `p.as_posix()`. -/
def PurePath.asPosix (p : PurePath) : Str :=
  let s := p.root ++ joinSlash p.parts
  if s = [] then ['.'] else s

/-- `p.name`. -/
def PurePath.name (p : PurePath) : Str := p.parts.getLast?.getD []

/-- `(p.stem, p.suffix)` for the file name `name`: the suffix starts at the last dot, unless this
is the first or the last character. -/
def stemSuffix (name : Str) : Str × Str :=
  let ext := (name.reverse.takeWhile (fun c => c != '.')).reverse
  let i := name.length - (ext.length + 1)
  if ext.length < name.length ∧ 0 < i ∧ ext ≠ [] then (name.take i, name.drop i) else (name, [])

/-- `p.with_name(name)`. -/
def PurePath.withName (p : PurePath) (name : Str) : Except PyErr PurePath :=
  if p.name = [] then .error .valueError
  else if name = [] ∨ '/' ∈ name ∨ name = ['.'] then .error .valueError
  else .ok ⟨p.root, p.parts.dropLast ++ [name]⟩

/-- The file `_save_or_show` writes (plot_figs.py:29-35); `none` when `fsave` is empty (or
`False`). -/
def figFile (figdir fsave version : Str) : Except PyErr (Option PurePath) :=
  if fsave = [] then .ok none
  else do
    let p := (parsePath figdir).join (parsePath fsave)
    if version <:+: p.asPosix then .ok (some p)
    else do
      let q ← p.withName ((stemSuffix p.name).1 ++ '_' :: version ++ (stemSuffix p.name).2)
      .ok (some q)

/-- Default file name of each figure function, and whether it passes its version label on
(plot_figs.py:77-1321; `kde_layers` passes an empty one, `ice_retention` none). -/
def figDefaults : List (String × String × Bool) :=
  [("compare_violin", "bsed_violin.pdf", true), ("crater_basin_ages", "crater_basin_ages.pdf", true),
    ("crater_scaling", "crater_scaling.pdf", true), ("distance_bsed", "distance_bsed.pdf", true),
    ("ejecta_bsed", "ejecta_bsed.pdf", true), ("kde_layers", "kde_layers.pdf", false),
    ("ejecta_distance", "ejecta_distance.pdf", true),
    ("volatilized_fraction_bsed", "volatilized_fraction_bsed.pdf", true),
    ("random_crater_ages", "random_crater_ages.pdf", true),
    ("strat_cols_bsed", "strat_cols_bsed.pdf", true), ("strat_cols_seeds", "strat_cols_seeds.pdf", true),
    ("surface_boxplot", "surface_boxplot.pdf", true), ("plot_by_module", "plot_by_module.pdf", true),
    ("ballistic_hop", "bhop_lat.png", true), ("ast_comet_vels", "comet_vels.png", true),
    ("ice_retention", "ice_retention.png", false), ("basin_ice", "basin_ice.png", true),
    ("bsed_sensitivity_violin", "bsed50_violin.png", true),
    ("comet_sensitivity_violin", "comet_violin.png", true), ("grid_plots", "grid_plots.png", true),
    ("plot_by_module_time", "plot_by_module_time.png", true)]

/-- `plot_version` returns `f"v{cfg.version}"` (plotting.py:47). -/
def versionLabel (version : Str) : Str := 'v' :: version

/-- `FIGDIR` (plot_figs.py:19). -/
def figDir (figsPath date version : Str) : Str :=
  ((parsePath figsPath).join (parsePath (date ++ '_' :: 'v' :: version))).asPosix

/-- The file each function writes when all figures are made with default arguments
(`_generate_all`, plot_figs.py:41-52). -/
def generateAll (figsPath date version : Str) : Except PyErr (List (Option PurePath)) :=
  figDefaults.mapM (fun f => figFile (figDir figsPath date version) f.2.1.toList
    (if f.2.2 then versionLabel version else []))

/-- An entry of the output directory: name, whether it is a directory, whether it holds
`layers.csv`. -/
structure OutEntry where
  name : String
  isDir : Bool
  hasLayers : Bool
deriving DecidableEq, Repr

/-- `_get_datedir` (plot_figs.py:55-65); `iterdir` lists the entries in an order of its own. -/
def getDatedir (entries : List OutEntry) : Except PyErr OutEntry :=
  match ((entries.filter (·.isDir)).reverse.find? (·.hasLayers)) with
  | some d => .ok d
  | none => .error .osError

end MoonPIES
