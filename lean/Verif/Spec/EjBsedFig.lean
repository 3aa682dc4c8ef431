import Verif.Model.EjBsedFig
import Verif.Spec.BasinLaw

/-!
# Specification: ejecta thickness and mixing depth by crater radius

For C119.
-/

namespace MoonPIES.Spec

/-- Radii of the smallest and the largest crater of a kind, in metres. -/
noncomputable def kindEnds : EjKind → ℝ × ℝ
  | .simple => (100, 8990)
  | .complex => (9010, 69990)
  | .basin => (70010, 660000)

/-- Ejecta of a crater of radius `r` are `t` metres thick at the distance `d`. -/
def EjectaLaw : EjKind → (r d t : ℝ) → Prop
  | .simple, r, d, t => t * d ^ 3 = 0.04 * r ^ 4
  | .complex, r, d, t => t * d ^ 3 = 0.14 * r ^ (3.74 : ℝ)
  | .basin, r, d, t => BasinEjecta (2 * r) d t

/-- Parts of local material in a part of ejecta at `d` metres: after Oberbeck up to five, halved towards
five above. -/
def PartsAt (d m : ℝ) : Prop :=
  ∃ o, o = 0.0183 * (d / 1000) ^ (0.87 : ℝ) ∧ (o ≤ 5 → m = o) ∧ (5 < o → m = (o + 5) / 2)

/-- The marker of a crater of a kind at the distance `d`. -/
def MarkOf (k : EjKind) (d : ℝ) (m : EjMark) : Prop :=
  ∃ t mr, m.thick = .fin t ∧ PartsAt d mr ∧ m.depth = .fin (mr * t) ∧
    (d < m.rad → t = 0) ∧ (m.rad ≤ d → 0 < t ∧ EjectaLaw k m.rad d t)

/-- The radii of `n + 1` craters are equally spaced on a logarithmic axis. -/
def LogSpaced (n : Nat) (a b : ℝ) (l : List ℝ) : Prop :=
  l.length = n + 1 ∧ ∀ (i : Nat) x, l[i]? = some x → 0 < x ∧ x ^ n * a ^ i = b ^ i * a ^ n

/-- Order of the series: by distance, then by kind. -/
noncomputable def seriesKeys : List (ℝ × EjKind) :=
  [(1000, .simple), (1000, .complex), (1000, .basin), (10000, .simple), (10000, .complex),
    (10000, .basin), (100000, .simple), (100000, .complex), (100000, .basin), (1000000, .simple),
    (1000000, .complex), (1000000, .basin)]

end MoonPIES.Spec
