import Verif.Model.IceByModule

/-!
# Specification vocabulary for the ice by module
-/

namespace MoonPIES.Spec

variable {σ : Type}

/-- What complete runs say about the ice and losses by time: `asteroid` is the ice a run delivers
by asteroids; `comet` the ice that comets deliver when the generator is as it was before the
asteroids; `bsed` the depth that ballistic sedimentation removes, averaged over the cold traps. -/
structure SeedRun (g : Gen σ) (c : RunCfg) (d : RunData) (time asteroid comet bsed : List ℝ) :
    Prop where
  lengths : asteroid.length = time.length ∧ comet.length = time.length ∧
    bsed.length = time.length
  run : ∃ st s, setup g c d = .ok st ∧ st.time = time ∧
    craterBasinList g c d (g.init c.seed) = .ok (st.df, s) ∧
    (∃ s', impactIce g c st.df time s = .ok (asteroid, s')) ∧
    (∃ s', impactIceComet g c st.df time s = .ok (comet, s')) ∧
    ∀ (i : Nat) depth frac, st.bsedDepth[i]? = some depth → st.bsedFrac[i]? = some frac →
      depth.length = c.coldtrap_names.length ∧ frac.length = c.coldtrap_names.length ∧
      bsed[i]? = some ((List.zipWith (· * ·) depth frac).sum / c.coldtrap_names.length)

/-- The seeds in use: `draw i` in place of the `i`th if that is 0. -/
def usedSeeds (draw : Nat → Int) (seeds : List Int) : List Int :=
  seeds.mapIdx (fun i n => if n = 0 then draw i else n)

/-- The mean over runs of a quantity. -/
noncomputable def meanOver {α : Type} (runs : List α) (f : α → ℝ) : ℝ :=
  (runs.map f).sum / runs.length

end MoonPIES.Spec
