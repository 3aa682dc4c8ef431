import Verif.Model.Main

/-!
# What a run needs
-/

namespace MoonPIES.Spec

/-- What a run cannot do without, read off the configuration and the files. -/
structure Usable (c : RunCfg) (d : RunData) : Prop where
  /-- there is a cold trap -/
  names : c.coldtrap_names ≠ []
  /-- every cold trap is in the crater or basin list -/
  listed : ∀ n ∈ c.coldtrap_names, ∃ r ∈ d.craters ++ d.basins, r.cname = n
  /-- and only once, unless nothing else is listed -/
  once : ∀ n ∈ c.coldtrap_names, ((d.craters ++ d.basins).map (·.cname)).count n = 1 ∨
    ∀ r ∈ d.craters ++ d.basins, r.cname = n
  /-- every listed crater and basin has an error bar -/
  bars : ∀ r ∈ d.craters ++ d.basins, 0 < r.age_low + r.age_upp
  /-- there is at least one timestep -/
  times : c.timestep ≠ 0 ∧ 1 ≤ (c.timestart - c.timeend) / c.timestep
  /-- volcanism by Head et al. -/
  volc : c.volc_mode = "Head"
  /-- the species of the ice is known -/
  species : c.ice_species = "H2O" ∨ c.ice_species = "CO2"
  /-- the solar wind, if it brings ice, is of a known kind, with a luminosity table if the young Sun is faint -/
  solar : c.solar_wind_ice = true → (c.solar_wind_mode.toLower = "benna" ∨
    c.solar_wind_mode.toLower = "lucey-hurley") ∧ (c.faint_young_sun = true → d.lum ≠ [])
  /-- the hop table, if used, has every cold trap -/
  hops : c.ballistic_hop_moores = true → ∀ n ∈ c.coldtrap_names, ∃ x, d.hop.get n = .ok x

end MoonPIES.Spec
