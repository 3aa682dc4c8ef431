import Verif.Model.Rounding

/-!
# Random impactor properties

`/repo/moonpies/moonpies.py` 263-296, 1958-2051, 2077-2106, 2864-2913.
Draws of the generator are arbitrary arguments.
-/

namespace MoonPIES

variable {K : Type} [Field K] [LinearOrder K]

/-- The configuration fields that decide impactor types (`config.py` 66-271). -/
structure ImpCfg (K : Type) where
  /-- `is_comet` -/
  isComet : Bool
  /-- `impact_ice_comets` -/
  comets : Bool
  /-- `impact_ice_basins` -/
  basins : Bool
  /-- `comet_ast_frac` -/
  cometFrac : K
  /-- `ctype_frac` -/
  ctypeFrac : K
  /-- `ctype_hydrated` -/
  ctypeHyd : K

/-- `hydration_prob` of `get_random_hydrated_craters` (moonpies.py:1970-1979). -/
def hydProbCraters (c : ImpCfg K) : K :=
  if c.isComet then c.cometFrac
  else if c.comets then (1 - c.cometFrac) * c.ctypeFrac * c.ctypeHyd
  else c.ctypeFrac * c.ctypeHyd

/-- `get_random_hydrated_craters` (moonpies.py:1958-1981): `u` are the draws. -/
def hydratedCraters (c : ImpCfg K) (u : List K) : List Bool :=
  u.map (fun x => decide (x < hydProbCraters c))

/-- C-type threshold of `get_random_hydrated_basins` (moonpies.py:1998-2002). -/
def hydProbBasins (c : ImpCfg K) : K :=
  if c.comets then (1 - c.cometFrac) * c.ctypeFrac * c.ctypeHyd else c.ctypeFrac * c.ctypeHyd

/-- `get_random_hydrated_basins` (moonpies.py:1984-2008): `u` are the draws. -/
def hydratedBasins (c : ImpCfg K) (u : List K) : List Bool × List Bool :=
  (u.map (fun x => decide (x < hydProbBasins c)), u.map (fun x => decide (x > 1 - c.cometFrac)))

/-- `random_icy_basins` (moonpies.py:289-296): the `icy_impactor` column for the basins. -/
def icyBasins (c : ImpCfg K) (u : List K) : List String :=
  let (ctype, comet) := hydratedBasins c u
  let col := u.map (fun _ => "no")
  if c.basins then
    let col := List.zipWith (fun s b => if b then "hyd_ctype" else s) col ctype
    if c.comets then List.zipWith (fun s b => if b then "comet" else s) col comet else col
  else col

/-! ## Impact speeds -/

/-- Support of `scipy.stats.truncnorm(a, b, loc, scale)`: `none` is an infinite upper
bound.  scipy truncates the standard normal to `[a, b]` and returns
`loc + scale * z`. -/
def truncnormSupport (a : K) (b : Option K) (loc scale : K) (v : K) : Prop :=
  ∃ z, a ≤ z ∧ (∀ b', b = some b' → z ≤ b') ∧ v = loc + scale * z

/-- Speed fields of the configuration (`config.py`). -/
structure SpeedCfg (K : Type) where
  /-- `escape_vel` -/
  escapeVel : K
  /-- `impact_speed_mean` -/
  speedMean : K
  /-- `impact_speed_sd` -/
  speedSd : K
  /-- `comet_speed_min` -/
  cometMin : K
  /-- `comet_speed_max` -/
  cometMax : K
  /-- `jfc_speed_mean` -/
  jfcMean : K
  /-- `jfc_speed_sd` -/
  jfcSd : K
  /-- `lpc_speed_mean` -/
  lpcMean : K
  /-- `lpc_speed_sd` -/
  lpcSd : K

/-- Values `asteroid_speed_rv` can return (moonpies.py:2027-2035). -/
def asteroidSpeed (c : SpeedCfg K) (v : K) : Prop :=
  truncnormSupport ((c.escapeVel - c.speedMean) / c.speedSd) none c.speedMean c.speedSd v

/-- Values the Jupiter-family component of `comet_speed_rv` can return
(moonpies.py:2044-2046). -/
def jfcSpeed (c : SpeedCfg K) (v : K) : Prop :=
  truncnormSupport (-c.cometMin / c.jfcSd) (some (c.cometMax / c.jfcSd)) c.jfcMean c.jfcSd v

/-- Values the long-period component can return (moonpies.py:2047-2049). -/
def lpcSpeed (c : SpeedCfg K) (v : K) : Prop :=
  truncnormSupport (-c.cometMin / c.lpcSd) (some (c.cometMax / c.lpcSd)) c.lpcMean c.lpcSd v

/-- Values `comet_speed_rv` can return: a mixture of the two components, both with
positive weight (moonpies.py:2050-2051). -/
def cometSpeed (c : SpeedCfg K) (v : K) : Prop := jfcSpeed c v ∨ lpcSpeed c v

/-! ## `rv_mixture` -/

/-- A submodel of the mixture: its distribution functions and its sampler, which maps
a generator state to `size` samples. -/
structure SubModel (K : Type) where
  /-- `pdf` -/
  pdf : K → K
  /-- `cdf` -/
  cdf : K → K
  /-- `sf` -/
  sf : K → K

/-- A constructed mixture. -/
structure Mixture (K : Type) where
  /-- `self.submodels` -/
  subs : List (SubModel K)
  /-- `self.weights` -/
  weights : List K

/-- `rv_mixture.__init__` (moonpies.py:2867-2887). -/
def mkMixture (subs : List (SubModel K)) (weights : Option (List K)) : Except PyErr (Mixture K) :=
  let ws := match weights with
    | none => subs.map (fun _ => (1 : K))
    | some w => w
  if ws.length ≠ subs.length then .error .valueError
  else if ws ≠ [] ∧ ws.sum = 0 then .error .zeroDivisionError
  else .ok ⟨subs, ws.map (fun w => w / ws.sum)⟩

/-- `_weighted_sum` (moonpies.py:2889-2891). -/
def weightedSum (weights vals : List K) : K := (List.zipWith (· * ·) vals weights).sum

/-- `_cdf` (moonpies.py:2901-2903). -/
def Mixture.cdf (m : Mixture K) (x : K) : K := weightedSum m.weights (m.subs.map (fun s => s.cdf x))
/-- `_sf` (moonpies.py:2897-2899). -/
def Mixture.sf (m : Mixture K) (x : K) : K := weightedSum m.weights (m.subs.map (fun s => s.sf x))
/-- `_pdf` (moonpies.py:2893-2895). -/
def Mixture.pdf (m : Mixture K) (x : K) : K := weightedSum m.weights (m.subs.map (fun s => s.pdf x))

/-- `np.choose(choices, samples)` (moonpies.py:2912): entry `i` is
`samples[choices[i]][i]`; an index out of range raises `ValueError`. -/
def npChoose {α : Type} (choices : List Nat) (samples : List (List α)) : Except PyErr (List α) :=
  (List.range choices.length).mapM (fun i => do
    let c ← pyGet choices i
    match samples[c]? with
    | none => .error .valueError
    | some col => pyGet col i)

/-! ## Splitting impacts between asteroids and comets -/

/-- Scaling of impactor counts in `get_impactors_brown` (moonpies.py:2087-2090) and of
crater counts in `get_crater_pop` (moonpies.py:2102-2105). -/
def scaleCount (c : ImpCfg K) (n : K) : K :=
  if c.isComet then n * c.cometFrac
  else if c.comets then n * (1 - c.cometFrac)
  else n

/-- Ice retained per kg of micrometeorites (moonpies.py:1798-1806). -/
def mmIceRet (c : ImpCfg K) (cometWt cometRet wt ret : K) : K :=
  if c.isComet then cometWt * cometRet
  else if c.comets then 0
  else wt * ret

/-- The configuration used for the comet part (`get_comet_cfg`, moonpies.py:1608-1614):
only `is_comet` matters here. -/
def ImpCfg.toComet (c : ImpCfg K) : ImpCfg K := { c with isComet := true }

end MoonPIES
