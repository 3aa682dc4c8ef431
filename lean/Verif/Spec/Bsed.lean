import Verif.Model.Bsed

/-!
# Specification of the temperature of ejecta
-/

namespace MoonPIES.Spec

variable {K : Type}

/-- Initial temperature of the ejecta of a crater (`false`) or of a basin (`true`); basins have a
warm and a cold value. -/
inductive EjectaTemperature (cfg : BsedCfg K) : Bool → K → Prop
  | crater : EjectaTemperature cfg false cfg.polar_ejecta_temp_init
  | warm : cfg.basin_ejecta_temp_warm = true →
      EjectaTemperature cfg true cfg.basin_ejecta_temp_init_warm
  | cold : cfg.basin_ejecta_temp_warm = false →
      EjectaTemperature cfg true cfg.basin_ejecta_temp_init_cold

end MoonPIES.Spec
