import Verif.Model.DistFig
import Verif.Spec.Reach
import Verif.Spec.BasinLaw

/-!
# Specification: what the figure of ballistic sedimentation should show

For C118, in terms of the files only.
-/

namespace MoonPIES.Spec

open InnerProductGeometry

/-- The trap lies `x` metres from the centre of `src` along the surface, and outside it. -/
def Outside (src trap : FileRow) (x : ℝ) : Prop :=
  src.cname ≠ trap.cname ∧
  (∃ p, trap.psr = some p ∧
    x = 1737400 * angle (direction src.lat src.lon) (direction p.1 p.2)) ∧
  (src.diam : ℝ) * 500 < x

/-- Thickness of the ejecta of a complex crater `x` metres from its centre. -/
noncomputable def complexThick (q : FileRow) (x : ℝ) : ℝ :=
  0.14 * (q.diam * 500 : ℝ) ^ (0.74 : ℝ) * (x / (q.diam * 500)) ^ (-3 : ℝ)

/-- Parts of local material mixed into a part of ejecta at `x` metres, after Oberbeck, those above
five halved towards five after Petro and Pieters. -/
noncomputable def localParts (x : ℝ) : ℝ :=
  if 0.0183 * (x / 1000) ^ (0.87 : ℝ) ≤ 5 then 0.0183 * (x / 1000) ^ (0.87 : ℝ)
  else (0.0183 * (x / 1000) ^ (0.87 : ℝ) + 5) / 2

/-- The lines of the file with the coordinates of a cold trap. -/
def TrapNamed (n : String) (t : FileRow) : Prop := t ∈ craterFile ∧ t.cname = n

/-- A row of the figure that belongs to the listed crater `q`. -/
def CraterPoints (traps : List String) (q : FileRow) (row : List DistPoint) : Prop :=
  row.length = traps.length ∧
  ∀ (j : Nat) n, traps[j]? = some n → ∃ t p, TrapNamed n t ∧ row[j]? = some p ∧
    (∀ x, p.dist = some x ↔ Outside q t x) ∧
    ∀ x, p.dist = some x → p.thick = complexThick q x ∧
      p.depth = some (-(complexThick q x * localParts x))

/-- A row of the figure that belongs to the listed basin `q`: only traps within five radii. -/
def BasinPoints (traps : List String) (q : FileRow) (row : List DistPoint) : Prop :=
  row.length = traps.length ∧
  ∀ (j : Nat) n, traps[j]? = some n → ∃ t p, TrapNamed n t ∧ row[j]? = some p ∧
    (∀ x, p.dist = some x ↔ Outside q t x ∧ x < 5 * (q.diam * 500)) ∧
    ∀ x, p.dist = some x → 0.001 < p.thick ∧ BasinEjecta (q.diam * 1000) x p.thick ∧
      p.depth = some (-(p.thick * localParts x))

/-- The points of the upper panel that belong to the crater `n`: for each cold trap outside it the
distance and the parts of local material there. -/
def MarksOf (traps : List String) (n : String) (m : String × List (Option ℝ × Option ℝ)) : Prop :=
  m.1 = n ∧ ∃ q, TrapNamed n q ∧ List.Forall₂ (fun n' (p : Option ℝ × Option ℝ) => ∃ t, TrapNamed n' t ∧
    (∀ x, p.1 = some x ↔ Outside q t x) ∧ p.2 = p.1.map localParts) traps m.2

end MoonPIES.Spec
