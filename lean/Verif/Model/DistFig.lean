import Verif.Model.Main
import Verif.Model.RngArg

/-!
# The figure of ballistic sedimentation with distance

`/repo/notebooks/figure_scripts/plot_figs.py` 261-329 (`distance_bsed`): mixing ratios of the craters
with a cold trap in the upper panel, thickness of ejecta and depth of mixing in the lower one.  The
measurements at the Ries crater, which are read from a file, are left out.
-/

namespace MoonPIES

variable {σ : Type}

/-- A point of the lower panel; NaN (`none`) is not drawn. -/
structure DistPoint where
  dist : Option ℝ
  thick : ℝ
  depth : Option ℝ

/-- What the figure shows. -/
structure DistFigure where
  /-- upper panel: label and points (distance, mixing ratio) of some craters (lines 297-302) -/
  marks : List (String × List (Option ℝ × Option ℝ))
  /-- lower panel: a row for each crater or basin, a point for each cold trap (lines 314, 317) -/
  points : List (List DistPoint)
  /-- the lines "Ejecta thickness" and "Ballistic Sed. Mixing Region" (lines 313, 316) -/
  line : List DistPoint
  /-- vertical lines with their labels (lines 319-321) -/
  vlines : List (String × Option ℝ)
  /-- right end of the axis (line 322) -/
  xmax : ℝ

/-- `df[df.cname == name].index[0]` (plot_figs.py:298, 306). -/
def rowIndex (df : CraterTable) (name : String) : Except PyErr Nat :=
  match df.findIdx? (fun r => decide (r.rest.crater.cname = name)) with
  | none => .error .indexError
  | some i => .ok i

/-- `np.argmax(coldtraps == name)` (plot_figs.py:307-309): the first `True`, and 0 if there is none.
For no cold traps the comparison is a single `False`. -/
def argmaxName (traps : List String) (name : String) : Nat :=
  match traps.findIdx? (fun t => decide (t = name)) with
  | none => 0
  | some i => i

/-- `np.nanmax` (plot_figs.py:311): `ValueError` for an empty array, NaN for one of NaN only. -/
noncomputable def nanMax (l : List (Option ℝ)) : Except PyErr (Option ℝ) :=
  match l with
  | [] => .error .valueError
  | _ :: _ => match l.filterMap id with
    | [] => .ok none
    | x :: xs => .ok (some (xs.foldl max x))

/-- `a[i]`. -/
def arrAt {α : Type} (l : List α) (i : Nat) : Except PyErr α :=
  match l[i]? with
  | none => .error .indexError
  | some x => .ok x

/-- The figure from a crater table (plot_figs.py:283-322).  Rows of the table have the index 0, 1, …
(moonpies.py:1954).  `set_xlim` raises `ValueError` for NaN. -/
noncomputable def distFigureOf (c : RunCfg) (df : CraterTable) : Except RunErr DistFigure := do
  let dists ← liftPy (coldtrapDists c.ej (df.map (·.rest.crater)) c.coldtrap_names)
  let thick ← thicknessMatrix c df dists
  let mr := fun r : List (Option ℝ) =>
    r.map (mixingRatio c.mixing_ratio_petro c.mixing_ratio_a c.mixing_ratio_b)
  let marks ← liftPy ((c.coldtrap_names.take 6).mapM fun n => do
    let i ← rowIndex df n
    let row ← arrAt dists i
    .ok (n, row.zip (mr row)))
  let a ← liftPy (rowIndex df "Amundsen")
  let xmax ← liftPy (nanMax (((df.zip dists).filter fun p => !p.1.rest.crater.isbasin).map
    (·.2)).flatten)
  let points := List.zipWith (fun ds ts => List.zipWith (fun (d : Option ℝ × Option ℝ) t =>
    ⟨d.1, t, d.2.map fun m => -t * m⟩) (ds.zip (mr ds)) ts) dists thick
  let line ← liftPy (arrAt points 0)
  let row ← liftPy (arrAt dists a)
  let vlines ← liftPy (["Faustini", "Shoemaker", "Haworth"].mapM fun n => do
    let x ← arrAt row (argmaxName c.coldtrap_names n)
    .ok ("Amundsen->" ++ n, x))
  match xmax with
  | none => .error (.py .valueError)
  | some xmax => .ok { marks := marks, points := points, line := line, vlines := vlines, xmax := xmax }

/-- `distance_bsed` (plot_figs.py:261-329): the table is drawn without a seed or generator, as in
`agesFigure`; craters have no outer limit of ejecta (lines 269-271). -/
noncomputable def distFigure (g : Gen σ) (c : RunCfg) (d : RunData) (e1 e2 : σ) :
    Except RunErr DistFigure := do
  let c := { c with ej_threshold := -1 }
  let (df, _) ← liftPy (craterBasinListRng g c d e1 e2 .none)
  distFigureOf c df

end MoonPIES
