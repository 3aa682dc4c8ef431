import Verif.Model.Main
import Verif.Spec.AgesToTime
import Verif.Props.Scaling

/-!
# Specification: the sources of polar ice

What asteroids and comets of each size deliver in one timestep, written from the physical
quantities of the configuration.  Masses are in kg.  Draws refer to the generator: a list was drawn
from a distribution if it is what the generator returns for it in some state, and each draw starts
from the state the draw before it left.
-/

namespace MoonPIES.Spec

open Real

variable {σ : Type}

/-- The two kinds of impactors. -/
inductive Kind
  | asteroid
  | comet

/-- Density of the impactors [kg/m³]. -/
def density (c : RunCfg) : Kind → ℝ
  | .asteroid => c.impactor_density
  | .comet => c.comet_density

/-- Mass fraction of water in a wet impactor. -/
def water (c : RunCfg) : Kind → ℝ
  | .asteroid => c.hydrated_wt_pct
  | .comet => c.comet_hydrated_wt_pct

/-- Fraction of the water of small impactors that the Moon retains. -/
def retained (c : RunCfg) : Kind → ℝ
  | .asteroid => c.impact_mass_retained
  | .comet => c.comet_mass_retained

/-- Share of the kind among all impacts; without comets all are asteroids. -/
def share (c : RunCfg) : Kind → ℝ
  | .asteroid => if c.impact_ice_comets then 1 - c.comet_ast_frac else 1
  | .comet => c.comet_ast_frac

/-- Fraction of the kind that is wet: hydrated C-types among asteroids, all comets. -/
def wet (c : RunCfg) : Kind → ℝ
  | .asteroid => c.ctype_frac * c.ctype_hydrated
  | .comet => 1

/-- The mark of the kind in the `icy_impactor` column. -/
def mark : Kind → String
  | .asteroid => "hyd_ctype"
  | .comet => "comet"

/-- Impact flux at `t` years ago over the present one. -/
noncomputable def fluxRatio (t : ℝ) : ℝ :=
  (6.93 * 5.44e-14 * exp (6.93 * (t / 10 ^ 9)) + 8.38e-4) / (6.93 * 5.44e-14 + 8.38e-4)

/-- Volume of a sphere of diameter `L`. -/
noncomputable def sphere (L : ℝ) : ℝ := π * L ^ 3 / 6

/-- Craters of at least diameter `D` made per m² and year today: the polynomial in the decimal
logarithm of `D` in km, per km² and Gyr. -/
noncomputable def production (c : RunCfg) (D : ℝ) : ℝ :=
  let a := if c.neukum_pf_new then c.neukum_pf_a_2001 else c.neukum_pf_a_1983
  10 ^ (∑ j : Fin a.length, a[j] * logb 10 (D / 1000) ^ (j : ℕ)) / 10 ^ 15

/-- Expected craters of the kind with diameters between `lo` and `hi` in the step at time `t`. -/
noncomputable def expected (c : RunCfg) (k : Kind) (lo hi t : ℝ) : ℝ :=
  share c k * (production c lo - production c hi) * c.sa_moon * c.timestep * fluxRatio t

/-- Expected impactors of the kind with diameters between `lo` and `hi` in the step at time `t`,
from the power law for the Earth. -/
noncomputable def expectedSmall (c : RunCfg) (k : Kind) (lo hi t : ℝ) : ℝ :=
  share c k * 10 ^ c.brown_c0 * (lo ^ (-c.brown_d0) - hi ^ (-c.brown_d0)) * c.timestep /
    c.earth_moon_ratio * fluxRatio t

/-- Diameters and probabilities of a regime: equal steps from `lo` to `hi`, as many as steps of the
configured size fit, with probabilities proportional to the power `slope` of the diameter. -/
structure Sizes (lo hi step slope : ℝ) (ds ps : List ℝ) : Prop where
  count : ds.length = ⌊(hi - lo) / step⌋₊ + 1
  length : ps.length = ds.length
  even : ∀ (i : Nat) d, ds[i]? = some d → d = lo + i * ((hi - lo) / ⌊(hi - lo) / step⌋₊)
  prob : ∀ (i : Nat) d p, ds[i]? = some d → ps[i]? = some p →
    p * (ds.map (fun x => x ^ slope)).sum = d ^ slope

/-- Fraction of the water kept in an impact at speed `v`. -/
noncomputable def kept (mode : String) (k : Kind) (v : ℝ) : ℝ :=
  if v < 10000 then (match k with | .asteroid => 1 / 2 | .comet => 1)
  else if mode = "cannon" then 36.26 * exp (-(0.3464 * (v / 1000)))
  else if mode = "moonpies" then 16600 / (v / 1000) ^ (4.16 : ℝ)
  else 1

/-- An impactor of length `L` and speed `v` makes a crater of transient diameter `t`: the Collins
law for large simple craters (regime `d`), the Johnson law for complex craters (`e`) and basins
(`f`). -/
def MadeBy (c : RunCfg) (k : Kind) (regime : String) (t v L : ℝ) : Prop :=
  0 < L ∧ ((regime = "d" ∧
      collinsForward L v (density c k) c.target_density c.grav_moon c.impact_angle = t) ∨
    ((regime = "e" ∨ regime = "f") ∧ johnsonForward L v (density c k) c.target_density c.grav_moon
      c.impact_angle c.simple2complex = t))

/-- The ice of one wet impactor that made a crater of final diameter `D` at speed `v`. -/
def IceOf (c : RunCfg) (k : Kind) (regime : String) (D v m : ℝ) : Prop :=
  ∃ L, MadeBy c k regime (final2transient c.simple2complex c.complex2peakring D) v L ∧
    m = sphere L * density c k * water c k * kept c.mode k v

/-- Steps in a row, each from the state the one before left. -/
inductive Steps {α β : Type} (step : α → σ → β → σ → Prop) : List α → σ → List β → σ → Prop
  | nil (s : σ) : Steps step [] s [] s
  | cons {a : α} {as : List α} {b : β} {bs : List β} {s s' s'' : σ} :
      step a s b s' → Steps step as s' bs s'' → Steps step (a :: as) s (b :: bs) s''

/-- `n` impact speeds: a normal distribution cut off below the escape speed for asteroids; for
comets first a choice between Jupiter family and long period, then a speed of each. -/
def Speeds (g : Gen σ) (c : RunCfg) (k : Kind) (n : Nat) (s : σ) (vs : List ℝ) (s' : σ) : Prop :=
  match k with
  | .asteroid => ∃ z, g.truncnorm ((c.escape_vel - c.impact_speed_mean) / c.impact_speed_sd) none n
      s = (z, s') ∧ vs = z.map (fun z => c.impact_speed_mean + c.impact_speed_sd * z)
  | .comet => ∃ pick s1 z s2 w,
      g.choiceIdx 2 n [c.jfc_frac / (c.jfc_frac + c.lpc_frac),
        c.lpc_frac / (c.jfc_frac + c.lpc_frac)] s = (pick, s1) ∧
      g.truncnorm (-c.comet_speed_min / c.jfc_speed_sd) (some (c.comet_speed_max / c.jfc_speed_sd))
        n s1 = (z, s2) ∧
      g.truncnorm (-c.comet_speed_min / c.lpc_speed_sd) (some (c.comet_speed_max / c.lpc_speed_sd))
        n s2 = (w, s') ∧
      vs.length = n ∧ ∀ (i : Nat) v, vs[i]? = some v →
        (pick[i]? = some 0 ∧ ∃ y, z[i]? = some y ∧ v = c.jfc_speed_mean + c.jfc_speed_sd * y) ∨
        (pick[i]? = some 1 ∧ ∃ y, w[i]? = some y ∧ v = c.lpc_speed_mean + c.lpc_speed_sd * y)

/-- The ice of `n` craters: diameters drawn from the distribution of the regime, of which those are
wet whose uniform draw is below the wet fraction times the share of the kind (a second time: the
number of craters has the share already), each with its own speed. -/
def Shower (g : Gen σ) (c : RunCfg) (k : Kind) (regime : String) (ds ps : List ℝ) (n : Int) (s : σ)
    (m : ℝ) (s' : σ) : Prop :=
  0 ≤ n ∧ ∃ craters s1 u s2 icy vs ms, g.choice ds n.toNat ps s = (craters, s1) ∧
    g.random craters.length s1 = (u, s2) ∧
    (open Classical in
      icy = ((craters.zip u).filter (fun p => decide (p.2 < share c k * wet c k))).map (·.1)) ∧
    Speeds g c k icy.length s2 vs s' ∧
    List.Forall₂ (fun p m => IceOf c k regime p.1 p.2 m) (icy.zip vs) ms ∧ m = ms.sum

/-- The ice of a regime in which craters are drawn one by one: in each step the expected number is
rounded up or down by a uniform draw. -/
def Drawn (g : Gen σ) (c : RunCfg) (k : Kind) (regime : String) (time : List ℝ) (s : σ)
    (ms : List ℝ) (s' : σ) : Prop :=
  ∃ lo hi step slope ds ps u s1, c.impact_regimes.get regime = .ok (lo, hi, step, slope) ∧
    Sizes lo hi step slope ds ps ∧ g.random time.length s = (u, s1) ∧
    Steps (Shower g c k regime ds ps)
      (List.zipWith (fun t u => ⌊expected c k lo hi t + u⌋) time u) s1 ms s'

open Classical in
/-- The ice of basins: one impactor for each basin of the table marked with the kind; each time
gets the ice of the basins it is nearest to. -/
def Basins (g : Gen σ) (c : RunCfg) (k : Kind) (df : CraterTable) (time : List ℝ) (s : σ)
    (ms : List ℝ) (s' : σ) : Prop :=
  ∃ rows vs bs,
    rows = df.filter (fun r => decide (r.rest.crater.isbasin = true ∧ r.rest.icy = mark k)) ∧
    Speeds g c k rows.length s vs s' ∧
    List.Forall₂ (fun p m => IceOf c k "f" p.1 p.2 m)
      ((rows.map (fun r => 2 * r.rest.crater.rad)).zip vs) bs ∧
    ms.length = time.length ∧ ∀ (i : Nat) m, ms[i]? = some m →
      m = (((rows.zip bs).filter (fun p => decide (InRange (1 / 10 ^ 6) time p.1.age ∧
        Nearest time p.1.age i))).map (·.2)).sum

/-- The ice of micrometeorites in the step at `t`; in runs with comets they are all cometary. -/
noncomputable def micro (c : RunCfg) (k : Kind) (t : ℝ) : ℝ :=
  match k with
  | .asteroid => if c.impact_ice_comets then 0
      else c.mm_mass_rate * c.timestep * water c k * retained c k * fluxRatio t
  | .comet => c.mm_mass_rate * c.timestep * water c k * retained c k * fluxRatio t

/-- Mean ice of a shower of `n` bodies with lengths `ls`, which have probabilities `ps`. -/
noncomputable def meanIce (c : RunCfg) (k : Kind) (n : ℝ) (ls ps : List ℝ) : ℝ :=
  n * ((ls.zip ps).map (fun p => sphere p.1 * p.2)).sum * density c k * wet c k * water c k *
    retained c k

/-- All ice of a kind at each time: micrometeorites, small impactors (regime `b`) and small craters
(`c`) at their mean rate, large simple (`d`) and complex craters (`e`) as drawn, and basins if they
are to deliver ice. -/
def KindIce (g : Gen σ) (c : RunCfg) (k : Kind) (df : CraterTable) (time : List ℝ) (s : σ)
    (total : List ℝ) (s' : σ) : Prop :=
  ∃ d s1 e s2 b, Drawn g c k "d" time s d s1 ∧ Drawn g c k "e" time s1 e s2 ∧
    Basins g c k df time s2 b s' ∧
    ∃ blo bhi bstep bslope bds bps clo chi cstep cslope cds cps ls,
      c.impact_regimes.get "b" = .ok (blo, bhi, bstep, bslope) ∧ Sizes blo bhi bstep bslope bds bps ∧
      c.impact_regimes.get "c" = .ok (clo, chi, cstep, cslope) ∧ Sizes clo chi cstep cslope cds cps ∧
      diam2lenPrieur (cds.map (fun d => d / 1.25)) c.impact_speed_mean (density c k)
        c.target_density c.grav_moon = .ok ls ∧
      total.length = time.length ∧
      ∀ (i : Nat) t x, time[i]? = some t → total[i]? = some x → ∃ di ei bi, d[i]? = some di ∧
        e[i]? = some ei ∧ b[i]? = some bi ∧
        x = micro c k t + meanIce c k (expectedSmall c k blo bhi t) bds bps +
          meanIce c k (expected c k clo chi t) ls cps + di + ei +
          if c.impact_ice_basins then bi else 0

/-- The area of the cold traps of the configured species. -/
noncomputable def trapArea (c : RunCfg) : ℝ :=
  if c.ice_species = "H2O" then c.coldtrap_area_H2O else c.coldtrap_area_CO2

/-- The polar ice: the mass in the cold traps is the fraction of the delivered mass that hops
there; what is delivered comes from asteroids, from comets if they are on, and from the solar wind
if it is on.  Comets are drawn in any case. -/
def PolarIce (g : Gen σ) (c : RunCfg) (lum : List (ℝ × ℝ)) (df : CraterTable) (time : List ℝ)
    (s : σ) (out : List ℝ) (s' : σ) : Prop :=
  ∃ ast s1 com sun, KindIce g c .asteroid df time s ast s1 ∧ KindIce g c .comet df time s1 com s' ∧
    (if c.solar_wind_ice then solarWindMass c.solar lum time = .ok sun
      else sun = List.replicate time.length 0) ∧
    out.length = time.length ∧ ∀ (i : Nat) x, out[i]? = some x → ∃ a b w, ast[i]? = some a ∧
      com[i]? = some b ∧ sun[i]? = some w ∧
      x * trapArea c * c.ice_density =
        c.ballistic_hop_effcy * (a + (if c.impact_ice_comets then b else 0) + w)

end MoonPIES.Spec
