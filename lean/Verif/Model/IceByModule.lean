import Verif.Model.Main

/-!
# Ice by module

`/repo/notebooks/figure_scripts/plot_figs.py` 838-976 (`plot_by_module` and its helpers): the
thickness each module delivers at each time, averaged over seeds, and its statistics by era.
-/

namespace MoonPIES

/-- Columns of the data frame (plot_figs.py:957-967). -/
inductive ModCol where
  | time
  | volcanic
  | solar
  | micrometeorite
  | smallImpactor
  | smallSimple
  | largeSimple
  | largeComplex
  | basin
  | gardening
  | bsed
  deriving DecidableEq

/-- A data frame with those columns. -/
abbrev ModuleTable := ModCol → List ℝ

namespace ModuleTable

/-- `df1 + df2` of frames with the same rows. -/
def add (a b : ModuleTable) : ModuleTable := fun k => addArr (a k) (b k)

/-- `df / x` for a nonzero `x`. -/
noncomputable def div (a : ModuleTable) (x : ℝ) : ModuleTable := fun k => (a k).map (· / x)

end ModuleTable

/-- `np.mean`; the mean of no values is NaN, which this model does not follow. -/
noncomputable def rowMean (l : List ℝ) : Except RunErr ℝ :=
  if l = [] then .error .infinite else .ok (l.sum / l.length)

variable {σ : Type}

/-- `_get_agg_bsed_depth` (plot_figs.py:971-976) with `agg=np.mean`: one value per time. -/
noncomputable def aggBsedDepth (c : RunCfg) (d : RunData) (df : CraterTable) (time : List ℝ) :
    Except RunErr (List ℝ) := do
  let dists ← liftPy (coldtrapDists c.ej (df.map (·.rest.crater)) c.coldtrap_names)
  let thick ← thicknessMatrix c df dists
  let (bd, bf) ← liftPy (bsedArrays c d time df dists thick)
  let all := List.zipWith (fun a b => List.zipWith (· * ·) a b) bd bf
  all.mapM rowMean

/-- The data frame with the given columns (plot_figs.py:957-967). -/
def moduleTable (time volc solar micro smallImp smallSimple largeSimple complex basin gard
    bsed : List ℝ) : ModuleTable
  | .time => time
  | .volcanic => volc
  | .solar => solar
  | .micrometeorite => micro
  | .smallImpactor => smallImp
  | .smallSimple => smallSimple
  | .largeSimple => largeSimple
  | .largeComplex => complex
  | .basin => basin
  | .gardening => gard
  | .bsed => bsed

/-- `_get_ice_by_module` (plot_figs.py:955-968). -/
noncomputable def iceByModule (g : Gen σ) (c : RunCfg) (d : RunData) (df : CraterTable)
    (time : List ℝ) (s : σ) : Except RunErr ModuleTable := do
  let volc ← liftPy (volcanicIce c.volc_mode c.ice c.head (fun x => (roundHalfEven x : ℝ))
    d.sortNk RunCfg.rtol c.timestep time d.nk)
  let solar ← liftPy (solarWindIce c.solar (readLuminosity d.lum) time)
  let micro ← liftPy (thicknessOf c (iceMicrometeorites c.flux time))
  let m ← liftPy (smallImpactorIce c.flux time)
  let smallImp ← liftPy (thicknessOf c m)
  let m ← liftPy (smallCraterIce c.flux time)
  let smallSimple ← liftPy (thicknessOf c m)
  let (m, s) ← liftPy (iceStochastic g c time "d" s)
  let largeSimple ← liftPy (thicknessOf c m)
  let (m, s) ← liftPy (iceStochastic g c time "e" s)
  let complex ← liftPy (thicknessOf c m)
  let (m, _) ← liftPy (iceBasins g c df time s)
  let basin ← liftPy (thicknessOf c m)
  let bsed ← aggBsedDepth c d df time
  .ok (moduleTable time volc solar micro smallImp smallSimple largeSimple complex basin
    (overturnDepth c.overturn time) bsed)

/-- `cdict['seed'] = seed; config.Cfg(**cdict)` (plot_figs.py:931-932) as far as a run reads it:
`draw` is the number drawn when the seed is 0 (config.py:369-377). -/
def RunCfg.reseed (c : RunCfg) (draw seed : Int) : RunCfg :=
  { c with seed := if seed = 0 then draw else seed }

/-- A crater table and the modules computed from a fresh generator (plot_figs.py:934-937 and
939-943). -/
noncomputable def freshModules (g : Gen σ) (c : RunCfg) (d : RunData) (time : List ℝ) :
    Except RunErr ModuleTable := do
  let (df, s) ← liftPy (craterBasinList g c d (g.init c.seed))
  iceByModule g c d df time s

/-- The loop over seeds (plot_figs.py:930-943); `draw i` is the number drawn for the `i`th seed
if that is 0. -/
noncomputable def seedLoop (g : Gen σ) (c : RunCfg) (d : RunData) (draw : Nat → Int)
    (time : List ℝ) : Nat → List Int → ModuleTable × ModuleTable →
      Except RunErr (ModuleTable × ModuleTable)
  | _, [], acc => .ok acc
  | i, seed :: rest, (adf, cdf) => do
    let c' := c.reseed (draw i) seed
    let a ← freshModules g c' d time
    let k ← freshModules g c'.comet d time
    seedLoop g c d draw time (i + 1) rest (adf.add a, cdf.add k)

/-- `loss_keys` (plot_figs.py:859). -/
def lossKeys : List ModCol := [.gardening, .bsed]

open Classical in
/-- `_get_ice_ast_comet_seeds` (plot_figs.py:920-953), with the time index as a column.  The
frame multiplied by 0 (plot_figs.py:926) is taken to be finite, so it is a frame of zeros.
Dividing by no seeds gives NaN, and adding frames with different times would too. -/
noncomputable def astCometSeeds (g : Gen σ) (c : RunCfg) (d : RunData) (draw : Nat → Int)
    (seeds : List Int) : Except RunErr ModuleTable := do
  let time ← liftPy (getTimeArray c.timestart c.timeend c.timestep)
  let zero : ModuleTable := fun _ => time.map (fun _ => 0)
  let (adf, cdf) ← seedLoop g c d draw time 0 seeds (zero, zero)
  if seeds = [] then .error .infinite
  else
    let adf := adf.div seeds.length
    let cdf := cdf.div seeds.length
    if adf .time = cdf .time then
      .ok fun k =>
        if k = .time then adf .time
        else if k ∈ lossKeys then (addArr (adf k) (cdf k)).map (· / 2)
        else addArr (adf k) (cdf k)
    else .error .infinite

/-! ## Sums of modules -/

/-- `impactor_keys` (plot_figs.py:855-857). -/
def impactorKeys : List ModCol :=
  [.micrometeorite, .smallImpactor, .smallSimple, .largeSimple, .largeComplex]

/-- `other_ice_keys` (plot_figs.py:858). -/
def otherIceKeys : List ModCol := [.volcanic, .solar, .basin]

/-- `np.sum(df[keys], axis=1)` (plot_figs.py:863-864). -/
noncomputable def sumCols (t : ModuleTable) (keys : List ModCol) : List ℝ :=
  (keys.map t).foldl addArr ((t .time).map (fun _ => 0))

/-- Columns of the figure (plot_figs.py:853-854). -/
inductive FigCol where
  | total
  | impactor
  | basin
  | volcanic
  | solar
  | gardening
  | bsed
  deriving DecidableEq

/-- `order` (plot_figs.py:853-854, 867). -/
def figOrder : List FigCol := [.total, .impactor, .basin, .volcanic, .solar, .gardening, .bsed]

/-- The columns of `tmp` (plot_figs.py:863-867). -/
noncomputable def figCol (t : ModuleTable) : FigCol → List ℝ
  | .total => sumCols t (impactorKeys ++ otherIceKeys)
  | .impactor => sumCols t impactorKeys
  | .basin => t .basin
  | .volcanic => t .volcanic
  | .solar => t .solar
  | .gardening => t .gardening
  | .bsed => t .bsed

end MoonPIES
