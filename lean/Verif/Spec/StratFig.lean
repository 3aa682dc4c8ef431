import Verif.Model.StratFig
import Verif.Spec.PlotColumn

/-!
# Specification vocabulary for the figures of stratigraphy columns
-/

namespace MoonPIES

variable {K : Type} [Field K] [LinearOrder K]

/-- Spec: of `runs`, `seeds` and `traps` there is the file of run `r`, seed `s` and cold trap `i`, with
the table `table`. -/
structure Spec.FileAt (load : String → Int → String → Option (List (StratRow K))) (runs : List String)
    (seeds : List Int) (traps : List String) (r s i : Nat) (table : List (StratRow K)) : Prop where
  found : ∃ run seed trap, runs[r]? = some run ∧ seeds[s]? = some seed ∧ traps[i]? = some trap ∧
    load run seed trap = some table

/-- Spec: the panel in row `r` and column `a` of the figure shows `d`. -/
def Spec.PanelShows (fig : StratFigure K) (r a : Nat) (d : Drawn K) : Prop :=
  ∃ row sp, fig.rows[r]? = some row ∧ (sp, d) ∈ row.cols ∧ sp.col = a

/-- Spec: the column, counted from the left, of cold trap `i` in the set of seed `s`: each set before it
has the cold traps and a gap. -/
def Spec.place (ntraps s i : Nat) : Nat := s * (ntraps + 1) + i

/-- Spec: `x` is the depth of the base of a layer that is drawn in one of the first rows up to `r`. -/
def Spec.DrawnBase (load : String → Int → String → Option (List (StratRow K))) (runs : List String)
    (seeds : List Int) (traps : List String) (minThick : K) (r : Nat) (x : K) : Prop :=
  ∃ r' s i table row, r' ≤ r ∧ Spec.FileAt load runs seeds traps r' s i table ∧
    Spec.Kept minThick table row ∧ row.depth = x

/-- Spec: the greatest of zero and the numbers with `p`. -/
def Spec.Deepest (p : K → Prop) (m : K) : Prop :=
  0 ≤ m ∧ (∀ x, p x → x ≤ m) ∧ (m = 0 ∨ p m)

end MoonPIES
