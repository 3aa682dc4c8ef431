import Verif.Model.PlotStrat
import Verif.Props.EjectaTime

/-!
# Specification vocabulary for drawing a column
-/

namespace MoonPIES

variable {K : Type} [Field K] [LinearOrder K]

/-- Spec: `sort` sorts by the key `key`; nothing is said about equal keys. -/
def Spec.SortsBy {α : Type} (key : α → K) (sort : List α → List α) : Prop :=
  ∀ l, (sort l).Perm l ∧ (sort l).Pairwise (fun a b => key a ≤ key b)

/-- Spec: depth of the top of layer `k`. -/
def Spec.layerTop (layers : List (CleanRow K)) : Nat → Option K
  | 0 => some 0
  | k + 1 => layers[k]?.map (·.depth)

/-- Spec: depth `d` lies inside layer `k`. -/
def Spec.Inside (layers : List (CleanRow K)) (k : Nat) (d : K) : Prop :=
  ∃ r top, layers[k]? = some r ∧ Spec.layerTop layers k = some top ∧ top < d ∧ d < r.depth

/-- Spec: a label names its sources, separated by commas. -/
structure Spec.Names (label : String) (ns : List String) : Prop where
  join : label = Spec.joinComma ns
  ne : ns ≠ []
  free : ∀ n ∈ ns, ',' ∉ n.toList

/-- Spec: `src` is the only source, or one of several with no listed source larger. -/
def Spec.Largest (cdf : SizeTable K) (ns : List String) (src : String) : Prop :=
  ns = [src] ∨
    src ∈ ns ∧ ∃ d, (src, d) ∈ cdf ∧ ∀ n ∈ ns, ∀ d', (n, d') ∈ cdf → d' ≤ d

/-- Spec: ice is dotted, `Other` is blank, all else has the hatch numbered by its hash. -/
structure Spec.Pattern (hash : String → Int) (src h : String) : Prop where
  ice : src = "Ice" → h = ".."
  other : src = "Other" → h = ""
  rest : src ≠ "Ice" → src ≠ "Other" →
    ∃ i : Nat, (i : Int) = hash src % 35 ∧ hatches[i]? = some h

/-- Spec: a label that can be drawn: its sources are listed unless there is just one. -/
def Spec.Drawable (cdf : SizeTable K) (label : String) : Prop :=
  ∃ ns, Spec.Names label ns ∧ (ns.length = 1 ∨ ∀ n ∈ ns, ∃ d, (n, d) ∈ cdf)

end MoonPIES
