import Verif.Model.RunCfg
import Verif.Model.Retention
import Verif.Model.RandomAges

/-!
# Impact-delivered ice with the random generator

`/repo/moonpies/moonpies.py` 1558-1757, 1838-1873, 1924-1931, 2011-2051, 2905-2913.

The numpy generator is a state machine: every draw maps a state to values and a new state.
Functions that take `rng` take and return the state, since `_rng(rng)` returns the same
generator object when it is given one (moonpies.py:1924-1926).
-/

namespace MoonPIES

/-- The generator methods used by the code.  `scipy.stats.truncnorm.rvs` draws standardised
values and returns `loc + scale * z`, so only the standardised bounds reach the generator. -/
structure Gen (σ : Type) where
  /-- `np.random.default_rng(seed)` -/
  init : Int → σ
  /-- `rng.random(n)` -/
  random : Nat → σ → List ℝ × σ
  /-- `rng.choice(values, n, p=p)` for valid arguments -/
  choice : List ℝ → Nat → List ℝ → σ → List ℝ × σ
  /-- `rng.choice(k, n, p=p)` for valid arguments -/
  choiceIdx : Nat → Nat → List ℝ → σ → List Nat × σ
  /-- `n` standardised draws of `truncnorm(a, b)`; `none` is an infinite upper bound -/
  truncnorm : ℝ → Option ℝ → Nat → σ → List ℝ × σ
  /-- one standardised draw of `truncnorm(a, b)` per pair of bounds -/
  truncnormEach : List (ℝ × ℝ) → σ → List ℝ × σ

variable {σ : Type}

/-- The check of `p` in `Generator.choice`: one probability per value, none negative, sum 1
(numpy allows a small tolerance in the sum). -/
def ValidProbs (k : Nat) (p : List ℝ) : Prop := p.length = k ∧ (∀ x ∈ p, 0 ≤ x) ∧ p.sum = 1

open Classical in
/-- `rng.choice(values, n, p=p)` (moonpies.py:1749): invalid probabilities and a negative size
raise `ValueError`. -/
noncomputable def choiceOf (g : Gen σ) (values : List ℝ) (n : Int) (p : List ℝ) (s : σ) :
    Except PyErr (List ℝ × σ) :=
  if ValidProbs values.length p ∧ 0 ≤ n then .ok (g.choice values n.toNat p s)
  else .error .valueError

/-! ## Impact speeds -/

open Classical in
/-- `stats.truncnorm(a, b, loc, scale).rvs(size=n, random_state=rng)`: `ValueError` unless
`a < b` and `scale ≥ 0`. -/
noncomputable def truncnormRvs (g : Gen σ) (a : ℝ) (b : Option ℝ) (loc scale : ℝ) (n : Nat)
    (s : σ) : Except PyErr (List ℝ × σ) :=
  if (∀ b', b = some b' → a < b') ∧ 0 ≤ scale then
    let (z, s') := g.truncnorm a b n s
    .ok (z.map (fun z => loc + scale * z), s')
  else .error .valueError

/-- `asteroid_speed_rv(cfg).rvs(size=n, random_state=rng)` (moonpies.py:2026-2035).  A zero
standard deviation raises in the division of Python floats. -/
noncomputable def asteroidSpeeds (g : Gen σ) (c : SpeedCfg ℝ) (n : Nat) (s : σ) :
    Except PyErr (List ℝ × σ) :=
  if c.speedSd = 0 then .error .zeroDivisionError
  else truncnormRvs g ((c.escapeVel - c.speedMean) / c.speedSd) none c.speedMean c.speedSd n s

open Classical in
/-- `comet_speed_rv(cfg).rvs(size=n, random_state=rng)` (moonpies.py:2038-2051): the mixture
draws the submodel of each value, then `n` values of each submodel, and chooses
(moonpies.py:2905-2913).  The weights are divided by their sum (moonpies.py:2887). -/
noncomputable def cometSpeeds (g : Gen σ) (c : SpeedCfg ℝ) (jfcFrac lpcFrac : ℝ) (n : Nat)
    (s : σ) : Except PyErr (List ℝ × σ) :=
  if c.jfcSd = 0 then .error .zeroDivisionError
  else if c.lpcSd = 0 then .error .zeroDivisionError
  else if jfcFrac + lpcFrac = 0 then .error .zeroDivisionError
  else
    let weights := [jfcFrac / (jfcFrac + lpcFrac), lpcFrac / (jfcFrac + lpcFrac)]
    if ValidProbs 2 weights then do
      let (choices, s) := g.choiceIdx 2 n weights s
      let (jfc, s) ← truncnormRvs g (-c.cometMin / c.jfcSd) (some (c.cometMax / c.jfcSd))
        c.jfcMean c.jfcSd n s
      let (lpc, s) ← truncnormRvs g (-c.cometMin / c.lpcSd) (some (c.cometMax / c.lpcSd))
        c.lpcMean c.lpcSd n s
      let speeds ← npChoose choices [jfc, lpc]
      .ok (speeds, s)
    else .error .valueError

/-- `get_random_impactor_speeds` (moonpies.py:2011-2023). -/
noncomputable def impactorSpeeds (g : Gen σ) (c : RunCfg) (n : Nat) (s : σ) :
    Except PyErr (List ℝ × σ) :=
  if c.is_comet then cometSpeeds g c.speed c.jfc_frac c.lpc_frac n s
  else asteroidSpeeds g c.speed n s

/-! ## Stochastic delivery -/

/-- One summand of `ice_large_craters` (moonpies.py:1838-1849). -/
noncomputable def largeCraterIce (c : RunCfg) (regime : String) (diam speed : ℝ) :
    Except PyErr ℝ := do
  let len ← diam2lenOne c.scale diam speed regime
  let mass := diam2vol len * c.impactor_density
  .ok (mass * c.hydrated_wt_pct * iceRetention c.mode c.is_comet speed)

/-- `ice_large_craters` (moonpies.py:1838-1849) of equally many diameters and speeds; NumPy
raises for other lengths, except that it would broadcast a single value. -/
noncomputable def largeCratersIce (c : RunCfg) (diams speeds : List ℝ) (regime : String) :
    Except PyErr ℝ :=
  if diams.length = speeds.length then do
    let masses ← (diams.zip speeds).mapM (fun p => largeCraterIce c regime p.1 p.2)
    .ok masses.sum
  else .error .valueError

/-- `rand_diams[hyd]`: the entries where the mask is true. -/
def maskSelect {α : Type} : List α → List Bool → List α
  | a :: as, b :: bs => if b then a :: maskSelect as bs else maskSelect as bs
  | _, _ => []

/-- Loop of `get_ice_stochastic` (moonpies.py:1747-1756) over the crater counts. -/
noncomputable def stochLoop (g : Gen σ) (c : RunCfg) (regime : String) (diams prob : List ℝ) :
    List Int → σ → Except PyErr (List ℝ × σ)
  | [], s => .ok ([], s)
  | n :: rest, s => do
    let (randDiams, s) ← choiceOf g diams n prob s
    let (u, s) := g.random randDiams.length s
    let hydDiams := maskSelect randDiams (hydratedCraters c.imp u)
    let (speeds, s) ← impactorSpeeds g c hydDiams.length s
    let mass ← largeCratersIce c hydDiams speeds regime
    let (out, s) ← stochLoop g c regime diams prob rest s
    .ok (mass :: out, s)

/-- `get_ice_stochastic` (moonpies.py:1726-1757). -/
noncomputable def iceStochastic (g : Gen σ) (c : RunCfg) (time : List ℝ) (regime : String)
    (s : σ) : Except PyErr (List ℝ × σ) := do
  let (diams, counts, prob) ← craterPop c.flux time regime
  let (u, s) := g.random counts.length s
  stochLoop g c regime diams prob (List.zipWith probRound counts u) s

/-! ## Basins -/

/-- A row of the crater table: the columns used for distances and thickness, and
`icy_impactor`. -/
structure CraterCols where
  crater : Crater
  icy : String

/-- The crater table (`df`). -/
abbrev CraterTable := List (CraterAge ℝ CraterCols)

/-- `bdf` of `ice_basins` (moonpies.py:1854-1861). -/
def icyRows (c : RunCfg) (df : CraterTable) : CraterTable :=
  let itype := if c.is_comet then "comet" else "hyd_ctype"
  df.filter (fun r => r.rest.crater.isbasin && decide (r.rest.icy = itype))

/-- `ice_basins` (moonpies.py:1852-1873).  `zip` stops at the shorter list; both have one entry
per basin. -/
noncomputable def iceBasins (g : Gen σ) (c : RunCfg) (df : CraterTable) (time : List ℝ) (s : σ) :
    Except PyErr (List ℝ × σ) := do
  let bdf := icyRows c df
  let diams := bdf.map (fun r => 2 * r.rest.crater.rad)
  let (speeds, s) ← impactorSpeeds g c bdf.length s
  let masses ← (diams.zip speeds).mapM (fun p => largeCraterIce c "f" p.1 p.2)
  let out ← ages2time RunCfg.rtol time ((bdf.map (·.age)).zip masses) (· + ·) 0
  .ok (out, s)

/-! ## All impact ice -/

/-- `get_ice_thickness` of an array (moonpies.py:898-930). -/
noncomputable def thicknessOf (c : RunCfg) (mass : List ℝ) : Except PyErr (List ℝ) :=
  mass.mapM (fun m => iceThickness c.ice m)

/-- `a + b` of arrays of one shape. -/
def addArr (a b : List ℝ) : List ℝ := List.zipWith (· + ·) a b

/-- The sum before basins in `get_impact_ice` (moonpies.py:1579-1584). -/
noncomputable def nonBasinIce (g : Gen σ) (c : RunCfg) (time : List ℝ) (s : σ) :
    Except PyErr (List ℝ × σ) := do
  let ice := time.map (fun _ => (0 : ℝ))
  let a ← thicknessOf c (iceMicrometeorites c.flux time)
  let ice := addArr ice a
  let m ← smallImpactorIce c.flux time
  let a ← thicknessOf c m
  let ice := addArr ice a
  let m ← smallCraterIce c.flux time
  let a ← thicknessOf c m
  let ice := addArr ice a
  let (m, s) ← iceStochastic g c time "d" s
  let a ← thicknessOf c m
  let ice := addArr ice a
  let (m, s) ← iceStochastic g c time "e" s
  let a ← thicknessOf c m
  .ok (addArr ice a, s)

/-- `get_impact_ice` (moonpies.py:1558-1588): basin ice is always drawn and added if asked
for. -/
noncomputable def impactIce (g : Gen σ) (c : RunCfg) (df : CraterTable) (time : List ℝ) (s : σ) :
    Except PyErr (List ℝ × σ) := do
  let (ice, s) ← nonBasinIce g c time s
  let (m, s) ← iceBasins g c df time s
  let b ← thicknessOf c m
  .ok (if c.impact_ice_basins then addArr ice b else ice, s)

/-- `get_impact_ice_comet` (moonpies.py:1617-1638). -/
noncomputable def impactIceComet (g : Gen σ) (c : RunCfg) (df : CraterTable) (time : List ℝ)
    (s : σ) : Except PyErr (List ℝ × σ) := impactIce g c.comet df time s

/-- `get_polar_ice` (moonpies.py:866-895); `lum` is the luminosity table. -/
noncomputable def polarIce (g : Gen σ) (c : RunCfg) (lum : List (ℝ × ℝ)) (df : CraterTable)
    (time : List ℝ) (s : σ) : Except PyErr (List ℝ × σ) := do
  let (ice, s) ← impactIce g c df time s
  let (comet, s) ← impactIceComet g c df time s
  let ice := if c.impact_ice_comets then addArr ice comet else ice
  let solar ← solarWindIce c.solar lum time
  .ok (addArr ice solar, s)

end MoonPIES
