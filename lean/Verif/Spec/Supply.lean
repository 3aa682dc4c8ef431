import Verif.Model.Main

/-!
# The options that scale impact ice

For C116 and C115.
-/

namespace MoonPIES

/-- Every entry of an array times `k`. -/
noncomputable def scaleArr (k : ℝ) (l : List ℝ) : List ℝ := l.map (fun x => k * x)

/-- The result of a module with every entry of its array times `k`; errors and the state of the
generator stay. -/
noncomputable def scaleRes {σ : Type} (k : ℝ) : Except PyErr (List ℝ × σ) → Except PyErr (List ℝ × σ)
  | .ok (l, s) => .ok (scaleArr k l, s)
  | .error e => .error e

/-- The configuration `c` with the options that scale impact ice taken from `o`: hydration and
retained mass of asteroids and comets, and the mass of micrometeorites. -/
def RunCfg.withSupply (c o : RunCfg) : RunCfg :=
  { c with
    mm_mass_rate := o.mm_mass_rate
    comet_hydrated_wt_pct := o.comet_hydrated_wt_pct
    comet_mass_retained := o.comet_mass_retained
    hydrated_wt_pct := o.hydrated_wt_pct
    impact_mass_retained := o.impact_mass_retained }

end MoonPIES
