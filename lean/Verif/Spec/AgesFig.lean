import Verif.Model.AgesFig
import Verif.Props.Reach

/-!
# Specification: what the figure of crater and basin ages should show
-/

namespace MoonPIES.Spec

/-- Ejecta of the listed crater or basin `src` reach one of the cold traps. -/
def Hits (traps : List String) (src : String) : Prop := ∃ n ∈ traps, InReach src n

open Classical in
/-- A basin in the figure: a star if its ejecta reach a cold trap. -/
noncomputable def basinTick (traps : List String) (name : String) : String :=
  if Hits traps name then "*" ++ name else name

/-- The bar of a listed crater or basin: the listed errors about an age on the grid of timesteps `ts`
that is within them, up to half a timestep. -/
structure BarOf (ts : ℝ) (q : FileRow) (b : AgeBar) : Prop where
  low : b.low = q.age_low
  upp : b.upp = q.age_upp
  above : q.age - q.age_low - ts / 2 / 1e9 ≤ b.age
  below : b.age ≤ q.age + q.age_upp + ts / 2 / 1e9
  grid : ∃ n : ℤ, b.age * 1e9 = n * ts

/-- Bars from the youngest to the oldest; of the same age, the one with the smaller upper error
first. -/
def Rising (l : List AgeBar) : Prop :=
  l.Pairwise fun a b => a.age < b.age ∨ (a.age = b.age ∧ a.upp ≤ b.upp)

/-- Each age on the axis from `left` down to `right` is in one era; only bounds may be in two. -/
def Tiled (eras : List (String × ℝ × ℝ)) (left right : ℝ) : Prop :=
  (∀ x, right ≤ x → x ≤ left → ∃ e ∈ eras, e.2.2 ≤ x ∧ x ≤ e.2.1) ∧
  eras.Pairwise fun e f => f.2.1 ≤ e.2.2

end MoonPIES.Spec
