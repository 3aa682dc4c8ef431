import Verif.Model.RunCfg

/-!
# Another unit of mass
-/

namespace MoonPIES.Spec

/-- The configuration with all masses multiplied by `k`: densities and the supply of micrometeorites. -/
noncomputable def inMassUnits (k : ℝ) (c : RunCfg) : RunCfg :=
  { c with
    ice_density := k * c.ice_density
    target_density := k * c.target_density
    impactor_density := k * c.impactor_density
    comet_density := k * c.comet_density
    volc_magma_density := k * c.volc_magma_density
    mm_mass_rate := k * c.mm_mass_rate }

end MoonPIES.Spec
