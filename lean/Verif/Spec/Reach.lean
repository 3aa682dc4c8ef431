import Verif.Props.Geo
import Verif.Model.Shipped

/-!
# Which craters and basins of the shipped files throw ejecta into which cold trap

Independent of the run: great-circle distances between listed coordinates on a sphere of
1737.4 km, and the blanket between one radius and four (basins: five) radii.
-/

namespace MoonPIES.Spec

open InnerProductGeometry

/-- The permanently shadowed region of `trap` lies outside `src` and less than `k` radii from its
centre. -/
def Reaches (k : ℝ) (src trap : FileRow) : Prop :=
  src.cname ≠ trap.cname ∧ ∃ p, trap.psr = some p ∧
    (src.diam : ℝ) * 500 < 1737400 * angle (direction src.lat src.lon) (direction p.1 p.2) ∧
    1737400 * angle (direction src.lat src.lon) (direction p.1 p.2) < k * (src.diam * 500)

/-- For each cold trap of the default configuration, the listed craters that reach it. -/
def craterReach : List (String × List String) := [
  ("Haworth", ["Shoemaker", "Amundsen", "Cabeus", "Nobile", "Scott"]),
  ("Shoemaker", ["Haworth", "Faustini", "Amundsen", "Cabeus", "Nobile", "Scott"]),
  ("Faustini", ["Shoemaker", "Amundsen", "Unnamed 1", "Nobile", "Scott", "Slater"]),
  ("Shackleton", ["Haworth", "Shoemaker", "Faustini", "Amundsen", "de Gerlache", "Cabeus", "Nobile",
    "Slater", "Sverdrup"]),
  ("Slater", ["Shoemaker", "Faustini", "Amundsen", "Cabeus", "Nobile", "Scott"]),
  ("Amundsen", ["Hedervari", "Unnamed 1", "Nobile", "Scott", "Idel'son"]),
  ("Cabeus", ["Cabeus B"]),
  ("Sverdrup", ["de Gerlache", "Cabeus"]),
  ("de Gerlache", ["Haworth", "Shoemaker", "Cabeus", "Sverdrup"]),
  ("Idel'son L", ["Amundsen", "Hedervari", "Idel'son"]),
  ("Wiechert J", ["Wiechert"]),
  ("Cabeus B", ["Cabeus"])]

/-- For each cold trap of the default configuration, the listed basins that reach it. -/
def basinReach : List (String × List String) := [
  ("Haworth", ["Amundsen-Ganswindt", "Nectaris", "Mendel-Rydberg", "Humorum", "Schrodinger",
    "Orientale"]),
  ("Shoemaker", ["Amundsen-Ganswindt", "Nectaris", "Mendel-Rydberg", "Humorum", "Schrodinger",
    "Orientale"]),
  ("Faustini", ["Amundsen-Ganswindt", "Nectaris", "Mendel-Rydberg", "Schrodinger", "Orientale"]),
  ("Shackleton", ["Amundsen-Ganswindt", "Mendel-Rydberg", "Humorum", "Schrodinger", "Orientale"]),
  ("Slater", ["Amundsen-Ganswindt", "Mendel-Rydberg", "Schrodinger", "Orientale"]),
  ("Amundsen", ["Nectaris", "Mendel-Rydberg", "Schrodinger", "Orientale"]),
  ("Cabeus", ["Amundsen-Ganswindt", "Schiller-Zucchius", "Mendel-Rydberg", "Humorum",
    "Schrodinger", "Orientale"]),
  ("Sverdrup", ["Amundsen-Ganswindt", "Mendel-Rydberg", "Humorum", "Schrodinger", "Orientale"]),
  ("de Gerlache", ["Amundsen-Ganswindt", "Mendel-Rydberg", "Humorum", "Schrodinger", "Orientale"]),
  ("Idel'son L", ["Mendel-Rydberg", "Schrodinger", "Orientale"]),
  ("Wiechert J", ["Amundsen-Ganswindt", "Mendel-Rydberg", "Schrodinger", "Orientale"]),
  ("Cabeus B", ["Amundsen-Ganswindt", "Schiller-Zucchius", "Mendel-Rydberg", "Humorum",
    "Schrodinger", "Orientale"])]

end MoonPIES.Spec
