import Verif.Model.Config

/-!
# Files written by a run and the command line

The file system is a tree of directories and files addressed by lists of components; symbolic
links, permissions and disk space are not modelled.  Every primitive change (making directories,
creating a file, filling it) is a separate step, so that an interruption between any two of them
can be talked about.
-/

namespace MoonPIES

/-- Absolute location: the components below the root. -/
abbrev Loc := List Str

/-- A file system holding contents of type `α`.  A file is `some none` from its creation until
its content is complete. -/
structure FS (α : Type) where
  isDir : Loc → Bool
  file : Loc → Option (Option α)

/-- Location of a path for the current directory `cwd`. -/
def locate (cwd p : Str) : Loc :=
  normComps true [] (splitSlash (if p.head? = some '/' then p else pathJoin cwd p))

variable {α : Type}

/-- `os.path.exists(p)`; the empty path does not exist. -/
def FS.exists (fs : FS α) (cwd p : Str) : Bool :=
  decide (p ≠ []) && (fs.isDir (locate cwd p) || (fs.file (locate cwd p)).isSome)

/-- A primitive change. -/
inductive Op (α : Type) where
  | makedirs (p : Str)
  | create (p : Str)
  | fill (p : Str) (a : α)

/-- Effect of one change.  `os.makedirs` raises for the empty path, an existing path or a file
on the way; opening for writing raises for a directory or if the parent is not one. -/
def step (cwd : Str) (fs : FS α) : Op α → Except PyErr (FS α)
  | .makedirs p =>
    if p = [] then .error .osError
    else if fs.exists cwd p then .error .osError
    else if (locate cwd p).inits.any (fun l => (fs.file l).isSome) then .error .osError
    else .ok { fs with isDir := fun l => fs.isDir l || decide (l <+: locate cwd p) }
  | .create p =>
    if p = [] ∨ p.getLast? = some '/' then .error .osError
    else if fs.isDir (locate cwd p) then .error .osError
    else if fs.isDir (locate cwd p).dropLast = false then .error .osError
    else .ok { fs with file := fun l => if l = locate cwd p then some none else fs.file l }
  | .fill p a => .ok { fs with file := fun l => if l = locate cwd p then some (some a) else fs.file l }

/-- Apply changes until one raises; all states reached, and the outcome. -/
def stepAll (cwd : Str) : FS α → List (Op α) → List (FS α) × Except PyErr (FS α)
  | fs, [] => ([], .ok fs)
  | fs, op :: ops => match step cwd fs op with
    | .error e => ([], .error e)
    | .ok fs' => (fs' :: (stepAll cwd fs' ops).1, (stepAll cwd fs' ops).2)

/-- The kinds of output `save_outputs` tells apart. -/
inductive Out (α : Type) where
  | frame (a : α)
  | array (a : α)
  | cfg (a : α)
  | other

/-- `np.save` adds the extension `.npy` unless it is there. -/
def npyName (f : Str) : Str := if ".npy".toList.isSuffixOf f then f else f ++ ".npy".toList

/-- Body of the loop of `save_outputs` (moonpies.py:2690-2700). -/
def saveOps (cwd : Str) (fs : FS α) (o : Out α) (fout : Str) : List (Op α) :=
  (if fs.exists cwd (dirName fout) then [] else [Op.makedirs (dirName fout)]) ++
    match o with
    | .frame a => [.create fout, .fill fout a]
    | .array a => [.create (npyName fout), .fill (npyName fout) a]
    | .cfg a => [.create fout, .fill fout a]
    | .other => []

/-- `save_outputs` (moonpies.py:2686-2700). -/
def saveOutputs (cwd : Str) : FS α → List (Out α × Str) → List (FS α) × Except PyErr (FS α)
  | fs, [] => ([], .ok fs)
  | fs, (o, f) :: rest =>
    match (stepAll cwd fs (saveOps cwd fs o f)).2 with
    | .error e => ((stepAll cwd fs (saveOps cwd fs o f)).1, .error e)
    | .ok fs' => ((stepAll cwd fs (saveOps cwd fs o f)).1 ++ (saveOutputs cwd fs' rest).1,
        (saveOutputs cwd fs' rest).2)

/-- What `format_save_outputs` reads from the configuration. -/
structure SaveCfg where
  write : Bool
  writeNpy : Bool
  outPath : Str
  configOut : Str
  ejOut : Str
  iceOut : Str
  ageOut : Str
  matrixOut : Str

/-- `format_save_outputs` after the tables are made (moonpies.py:2656-2683): `cfgText` is the
configuration, `ej` and `ice` the columns, `strats` the stratigraphy tables in order, `grids` the
two gridded outputs. -/
def formatSaveOutputs (cwd : Str) (fs : FS α) (cfg : SaveCfg) (cfgText ej ice : α)
    (strats : List (Str × α)) (grids : α × α) : List (FS α) × Except PyErr (FS α) :=
  let first := if cfg.write then
      saveOutputs cwd fs ((.cfg cfgText, cfg.configOut) ::
        strats.map (fun s => (Out.frame s.2,
          pathJoin cfg.outPath ("strat_".toList ++ s.1 ++ ".csv".toList))) ++
        [(.frame ej, cfg.ejOut), (.frame ice, cfg.iceOut)])
    else ([], .ok fs)
  match first.2 with
  | .error e => (first.1, .error e)
  | .ok fs' =>
    let second := if cfg.writeNpy then
        saveOutputs cwd fs' [(.array grids.1, cfg.ageOut), (.array grids.2, cfg.matrixOut)]
      else ([], .ok fs')
    (first.1 ++ second.1, second.2)

/-- Read the saving options from a configuration. -/
def saveCfgOf (c : CfgVals) : SaveCfg where
  write := decide (c "write" = .bool true)
  writeNpy := decide (c "write_npy" = .bool true)
  outPath := strVal (c "out_path")
  configOut := strVal (c "config_py_out")
  ejOut := strVal (c "ej_t_csv_out")
  iceOut := strVal (c "ice_t_csv_out")
  ageOut := strVal (c "agegrd_npy_out")
  matrixOut := strVal (c "ejmatrix_npy_out")

/-- What the simulation computes before anything is saved. -/
structure Results (α : Type) where
  cfgText : α
  ej : α
  ice : α
  strats : List (Str × α)
  grids : α × α

/-- Outcome of a call of the command line. -/
inductive CliResult (α : Type) where
  | failed (e : PyErr)
  | skipped
  | ran (states : List (FS α)) (result : Except PyErr (FS α))

/-- `run` (cli.py:24-55): read the configuration, skip if asked to and the output directory
exists, else simulate (`work`) and save.  The configuration sees the file system through
`path.exists`. -/
def cliRun (env : Env) (fs : FS α) (file : Option (List (String × PyVal))) (seed : Option Int)
    (resume : Bool) (work : CfgVals → Except PyErr (Results α)) : CliResult α :=
  match readCustomCfg { env with pathExists := fs.exists env.cwd } file seed with
  | .error e => .failed e
  | .ok c =>
    if resume ∧ fs.exists env.cwd (strVal (c "out_path")) = true then .skipped
    else match work c with
      | .error e => .failed e
      | .ok r => .ran (formatSaveOutputs env.cwd fs (saveCfgOf c) r.cfgText r.ej r.ice r.strats r.grids).1
          (formatSaveOutputs env.cwd fs (saveCfgOf c) r.cfgText r.ej r.ice r.strats r.grids).2

end MoonPIES
