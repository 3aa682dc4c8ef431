import Verif.Spec.LayDown

/-!
# What a delivery has above the gardening of its own timestep
-/

namespace MoonPIES.Spec

variable {K : Type} [Field K] [LinearOrder K]

/-- The ice of an event out of reach of the gardening of the same timestep. -/
def surplus (v : Event K) : K := v.ice - min v.ice (max 0 (v.overturn - v.ej))

end MoonPIES.Spec
