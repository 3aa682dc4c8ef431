import Verif.Model.Cmap

/-!
# Specification vocabulary for colour maps
-/

namespace MoonPIES

/-- Spec: `c` is the hexadecimal digit of value `n`. -/
def Spec.Digit (c : Char) (n : Nat) : Prop :=
  "0123456789abcdef".toList[n]? = some c ∨ "0123456789ABCDEF".toList[n]? = some c

/-- Spec: `s` is a colour of six digits, with or without `#`, of the given red, green and blue. -/
def Spec.HexColour (s : String) (rgb : Nat × Nat × Nat) : Prop :=
  ∃ a1 a0 b1 b0 c1 c0 r1 r0 g1 g0 u1 u0, (s.toList = [a1, a0, b1, b0, c1, c0] ∨
    s.toList = ['#', a1, a0, b1, b0, c1, c0]) ∧
    Spec.Digit a1 r1 ∧ Spec.Digit a0 r0 ∧ Spec.Digit b1 g1 ∧ Spec.Digit b0 g0 ∧
    Spec.Digit c1 u1 ∧ Spec.Digit c0 u0 ∧ rgb = (16 * r1 + r0, 16 * g1 + g0, 16 * u1 + u0)

variable {K : Type} [Field K] [LinearOrder K]

/-- Spec: `v` is entry `i` of 256 that interpolate linearly between the values `c`, evenly spaced. -/
def Spec.Interpolated (c : List K) (i : Nat) (v : K) : Prop :=
  ∃ (j : Nat) (x y : K), c[j]? = some x ∧ c[j + 1]? = some y ∧
    j * 255 ≤ i * (c.length - 1) ∧ i * (c.length - 1) ≤ (j + 1) * 255 ∧
    v = x + ((i : K) * ((c.length - 1 : Nat) : K) / 255 - j) * (y - x)

/-- Spec: a table of 256 entries interpolating between the values `c` (256ths). -/
def Spec.Gradient (c : List Nat) (table : List K) : Prop :=
  table.length = 256 ∧ ∀ (i : Nat) v, table[i]? = some v →
    Spec.Interpolated (c.map (fun n : Nat => (n : K) / 256)) i v

end MoonPIES
