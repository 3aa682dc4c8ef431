import Verif.Model.RngArg
import Verif.Spec.Sources
import Verif.Spec.Quantile

/-!
# Specification: crater tables drawn from given states, and smoothed curves
-/

namespace MoonPIES.Spec

variable {σ : Type}

/-- The states from which the marks of the basins and the ages are drawn: new generators without an
argument, the same start twice with a seed, one after the other with a generator. -/
def states (g : Gen σ) (basins : Nat) (e1 e2 : σ) : RngArg σ → σ × σ
  | .none => (e1, e2)
  | .seed n => (g.init n, g.init n)
  | .gen s => (s, (g.random basins s).2)

open Classical in
/-- What made a basin, from its draw `x` between 0 and 1: comets at the upper end, hydrated C-type
asteroids at the lower end. -/
noncomputable def basinMark (c : RunCfg) (x : ℝ) : String :=
  if c.impact_ice_basins = false then "no"
  else if c.impact_ice_comets = true ∧ 1 - c.comet_ast_frac < x then "comet"
  else if x < share c .asteroid * wet c .asteroid then "hyd_ctype"
  else "no"

/-- The range of a standardised draw: from the lower to the upper error bar, in units of a quarter
of their sum. -/
noncomputable def ageRange (raw : RawCrater) : ℝ × ℝ :=
  (-(4 * raw.age_low / (raw.age_low + raw.age_upp)), 4 * raw.age_upp / (raw.age_low + raw.age_upp))

/-- `r` is the row for the listed crater `raw` with the standardised draw `z` of its age: the age is
the multiple of the timestep closest to the drawn one. -/
structure DrawnRow (c : RunCfg) (raw : RawCrater) (basin : Bool) (icy : String) (z : ℝ)
    (r : CraterAge ℝ CraterCols) : Prop where
  name : r.rest.crater.cname = raw.cname
  basin : r.rest.crater.isbasin = basin
  radius : r.rest.crater.rad = 500 * raw.diam
  icy : r.rest.icy = icy
  grid : ∃ m : ℤ, r.age = m * c.timestep
  age : |r.age - (raw.age + (raw.age_low + raw.age_upp) / 4 * z) * 10 ^ 9| ≤ c.timestep / 2

/-- `df` lists the craters and basins of the files, oldest first, with marks for the draws `u` and
ages for the draws `z`. -/
def TableDrawn (c : RunCfg) (d : RunData) (u z : List ℝ) (df : CraterTable) : Prop :=
  (df.map (·.age)).Pairwise (· ≥ ·) ∧ ∃ rows, df.Perm rows ∧
    rows.length = d.craters.length + d.basins.length ∧
    (∀ (i : Nat) raw, d.craters[i]? = some raw → ∃ r x, rows[i]? = some r ∧ z[i]? = some x ∧
      DrawnRow c raw false "no" x r) ∧
    (∀ (i : Nat) raw, d.basins[i]? = some raw → ∃ r x y, rows[d.craters.length + i]? = some r ∧
      z[d.craters.length + i]? = some x ∧ u[i]? = some y ∧
      DrawnRow c raw true (basinMark c y) x r)

/-- The ice thickness by basins in a run, with three states from which the marks, the ages and the
speeds are drawn. -/
def BasinRun (g : Gen σ) (c : RunCfg) (d : RunData) (k : Kind) (time : List ℝ) (e : σ × σ × σ)
    (run : List ℝ) : Prop :=
  ∃ df m s', TableDrawn c d (g.random d.basins.length e.1).1
      (g.truncnormEach ((d.craters ++ d.basins).map ageRange) e.2.1).1 df ∧
    Basins g c k df time e.2.2 m s' ∧ run.length = time.length ∧
    ∀ (i : Nat) x, run[i]? = some x → ∃ y, m[i]? = some y ∧
      x * trapArea c * c.ice_density = c.ballistic_hop_effcy * y

/-- `l` is `x` smoothed over three values: each is replaced by a third of the sum of itself and its
neighbours, and what would be before the first or after the last counts as 0. -/
def Smooth3 (x l : List ℝ) : Prop :=
  l.length = x.length ∧ ∀ (i : Nat) b, x[i]? = some b → ∃ v, l[i]? = some v ∧
    3 * v = (if i = 0 then 0 else x.getD (i - 1) 0) + b + x.getD (i + 1) 0

end MoonPIES.Spec
