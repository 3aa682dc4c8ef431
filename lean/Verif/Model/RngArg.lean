import Verif.Model.IceByModule
import Verif.Model.Quantile

/-!
# The argument `rng`, and the figure of basin ice

`/repo/moonpies/moonpies.py` 1924-1931 (`_rng`, `get_rng`), 230-296 (`get_crater_basin_list`) and
1710-1720 (`get_basin_ice`) for every kind of argument `rng`, and
`/repo/notebooks/figure_scripts/plot_figs.py` 1149-1195 (`basin_ice`), which passes none.
-/

namespace MoonPIES

variable {σ : Type}

/-- An argument `rng`: `None`, an integer seed, or a generator in some state. -/
inductive RngArg (σ : Type) where
  | none
  | seed (n : Int)
  | gen (s : σ)

namespace RngArg

/-- The state of `np.random.default_rng(rng)` (moonpies.py:1924-1926): a generator is used as it is,
a seed starts a new one, and without either a new one starts from `e`, taken from the operating
system. -/
def start (g : Gen σ) (e : σ) : RngArg σ → σ
  | none => e
  | seed n => g.init n
  | gen s => s

/-- The argument for the next call: only a generator remembers what was drawn. -/
def after (s' : σ) : RngArg σ → RngArg σ
  | none => none
  | seed n => seed n
  | gen _ => gen s'

end RngArg

/-- `get_crater_basin_list` (moonpies.py:230-260) for any argument `rng`, which is passed on to
`random_icy_basins` and to `randomize_crater_ages`; each makes its own generator from it
(moonpies.py:1944, 1995). -/
noncomputable def craterBasinListRng (g : Gen σ) (c : RunCfg) (d : RunData) (e1 e2 : σ)
    (r : RngArg σ) : Except PyErr (CraterTable × RngArg σ) := do
  let craters := d.craters.map (readRow false "no")
  let (u, s) := g.random d.basins.length (r.start g e1)
  let r := r.after s
  let basins := List.zipWith (fun r icy => readRow true icy r) d.basins (icyBasins c.imp u)
  let df := craters ++ basins
  let (z, s) := g.truncnormEach (df.map (fun r => (truncA r, truncB r))) (r.start g e2)
  let df ← randomizeAges d.sortAges c.timestep (fun i => z.getD i 0) df
  .ok (df, r.after s)

/-- `get_basin_ice` (moonpies.py:1710-1720) for any argument `rng`, used once
(moonpies.py:1863, 2022). -/
noncomputable def basinIceRng (g : Gen σ) (c : RunCfg) (df : CraterTable) (time : List ℝ) (e : σ)
    (r : RngArg σ) : Except PyErr (List ℝ) := do
  let (m, _) ← iceBasins g c df time (r.start g e)
  thicknessOf c m

/-! ## The figure -/

section

variable {K : Type} [Field K] [LinearOrder K]

/-- `np.convolve(x, np.ones(w), 'same')`: the middle part, as long as the longer of both, of all
sums of values under the window, where values before the first and after the last count as 0. -/
def convolveOnes (x : List K) (w : Nat) : Except PyErr (List K) :=
  if x = [] ∨ w = 0 then .error .valueError
  else
    let m := min x.length w
    let off := m - 1 - m / 2
    .ok ((List.range (max x.length w)).map fun i =>
      ((x.zipIdx.filter (fun p => decide (p.2 ≤ i + off ∧ i + off < p.2 + w))).map (·.1)).sum)

/-- `moving_avg` (plot_figs.py:1156-1158). -/
def movingAvg (x : List K) (w : Nat) : Except PyErr (List K) := do
  let s ← convolveOnes x w
  .ok (s.map (· / (w : K)))

end

/-- One run of the figure (plot_figs.py:1173-1180): the configuration is given a seed, but no
generator is passed, so the three states come from the operating system. -/
noncomputable def basinFigRun (g : Gen σ) (c : RunCfg) (d : RunData) (time : List ℝ)
    (comet : Bool) (draw seed : Int) (e : σ × σ × σ) : Except PyErr (List ℝ) := do
  let c := c.reseed draw seed
  let (df, _) ← craterBasinListRng g c d e.1 e.2.1 .none
  let c := if comet then c.comet else c
  basinIceRng g c df time e.2.2 .none

/-- The curves of the figure for one kind of impactor (plot_figs.py:1167-1186). -/
structure BasinCurves where
  /-- times [yr] -/
  time : List ℝ
  /-- `all_basin_ice`, by runs -/
  runs : List (List ℝ)
  mean : List ℝ
  pct : List ℝ

/-- A percentile of no values is NaN, which this model does not follow. -/
def orNan {α : Type} : Option α → Except RunErr α
  | some a => .ok a
  | none => .error .infinite

/-- The figure of basin ice for one kind of impactor (plot_figs.py:1160-1186): seeds from 200 on,
a window of three timesteps, and the times of the default configuration whatever `cfg` says
(plot_figs.py:1165; `get_time_array` without an argument). -/
noncomputable def basinFig (g : Gen σ) (c : RunCfg) (d : RunData) (comet : Bool) (n : Nat)
    (draw : Nat → Int) (ent : Nat → σ × σ × σ) : Except RunErr BasinCurves := do
  let time ← liftPy (getTimeArray (4.25e9 : ℝ) 0 10e6)
  let runs ← liftPy ((List.range n).mapM
    (fun i => basinFigRun g c d time comet (draw i) (200 + i) (ent i)))
  let rows := (List.range time.length).map (column runs)
  let means ← rows.mapM rowMean
  let pcts ← rows.mapM (fun l => orNan (quantile (997 / 1000) l))
  let mean ← liftPy (movingAvg means 3)
  let pct ← liftPy (movingAvg pcts 3)
  .ok ⟨time, runs, mean, pct⟩

end MoonPIES
