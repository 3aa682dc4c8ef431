import Verif.Model.IceByModule

/-!
# The figure of random crater ages

`/repo/notebooks/figure_scripts/plot_figs.py` 671-735 (`random_crater_ages`): histograms of the age
of each crater, from 100 runs in the upper panel and 100000 draws in the lower one.
-/

namespace MoonPIES

variable {σ : Type}

open Classical in
/-- The number of values in the bin from `a` to `b`, which includes `b` only if it is the last. -/
noncomputable def binCount (xs : List ℝ) (a b : ℝ) (last : Bool) : Nat :=
  xs.countP fun x => decide (a ≤ x ∧ (x < b ∨ (last = true ∧ x = b)))

/-- The heights of `ax.hist(xs, bins=edges)`: values outside all bins are left out. -/
noncomputable def npHist (edges : List ℝ) (xs : List ℝ) : List Nat :=
  (List.zipWith (fun a b => (a, b)) edges edges.tail).zipIdx.map
    fun p => binCount xs p.1.1 p.1.2 (p.2 + 2 == edges.length)

/-- `np.arange(159.5, 420.5) / 100` (plot_figs.py:685, 722). -/
noncomputable def ageBins : List ℝ := (List.range 261).map fun k : Nat => (159.5 + k) / 100

/-- `df_rand.loc[crater_list, 'age'] / 1e9`, stored as a row of `ages` (plot_figs.py:693): all rows of
each name in turn; `ValueError` unless there are as many as craters. -/
noncomputable def agesByName (df : CraterTable) (names : List String) : Except PyErr (List ℝ) :=
  let l := names.flatMap fun n => (df.filter fun r => r.rest.crater.cname = n).map fun r => r.age / 1e9
  if l.length = names.length then .ok l else .error .valueError

/-- `randomize_crater_ages` as seen by its caller (moonpies.py:1934-1955): the new ages are put into the
frame that was passed (line 1953), the result is a sorted copy. -/
noncomputable def randomizeInPlace (sort : CraterTable → CraterTable) (ts : ℝ) (z : Nat → ℝ)
    (rows : CraterTable) : Except PyErr (CraterTable × CraterTable) :=
  (newAges ts z 0 rows).map fun m => (m, sort m)

/-- One run of the upper panel (plot_figs.py:687-693), and the frame `df` it leaves behind: `seed = 0`
is replaced by `draw`. -/
noncomputable def ageFigRun (g : Gen σ) (c : RunCfg) (d : RunData) (draw seed : Int) :
    Except PyErr (List ℝ × CraterTable) := do
  let c := c.reseed draw seed
  let df := d.craters.map (readRow false "no")
  let (z, _) := g.truncnormEach (df.map fun r => (truncA r, truncB r)) (g.init c.seed)
  let (df, sorted) ← randomizeInPlace d.sortAges c.timestep (fun i => z.getD i 0) df
  let ages ← agesByName sorted (d.craters.map (·.cname))
  .ok (ages, df)

/-- The upper panel (plot_figs.py:679-702): label and heights for each crater. -/
noncomputable def ageFigTop (g : Gen σ) (c : RunCfg) (d : RunData) (draw : Int) :
    Except PyErr (List (String × List Nat)) := do
  let runs ← (List.range 100).mapM fun seed : Nat => ageFigRun g c d draw seed
  .ok (d.craters.zipIdx.map fun p => (p.1.cname, npHist ageBins (column (runs.map (·.1)) p.2)))

open Classical in
/-- `S` (plot_figs.py:713-720), by draws: `n` draws for each crater of `df`, from a new generator of the
configuration; `ValueError` for bounds that are NaN or not in order and for a negative scale. -/
noncomputable def ageFigDraws (g : Gen σ) (c : RunCfg) (df : CraterTable) (n : Nat) :
    Except PyErr (List (List ℝ)) :=
  if ∀ r ∈ df, 0 < sigOf r ∧ truncA r < truncB r then
    let bounds := df.map fun r => (truncA r, truncB r)
    let z := (g.truncnormEach (List.replicate n bounds).flatten (g.init c.seed)).1
    .ok ((List.range n).map fun i => df.zipIdx.map fun p =>
      roundToTs (p.1.age + sigOf p.1 * z.getD (i * df.length + p.2) 0) c.timestep / 1e9)
  else .error .valueError

open Classical in
/-- The lower panel (plot_figs.py:704-731): `cfg` and `df` are those of the last run, with seed 99.  For
each crater the heights in the panel, and in the inset if there are ages below 3 Ga. -/
noncomputable def ageFigBottom (g : Gen σ) (c : RunCfg) (d : RunData) (draw : Int) :
    Except PyErr (List (List Nat × Option (List Nat))) := do
  let (_, df) ← ageFigRun g c d draw 99
  let s ← ageFigDraws g (c.reseed draw 99) df 100000
  .ok ((List.range d.craters.length).map fun j =>
    let row := column s j
    let young := row.filter fun x => decide (x < 3)
    (npHist ageBins row, if young = [] then none else some (npHist ageBins young)))

end MoonPIES
