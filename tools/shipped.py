"""Write lean/Verif/Model/Shipped.lean from the data files of the repository."""
import csv
from decimal import Decimal
from pathlib import Path

DATA = Path("/repo/moonpies/data")
OUT = Path(__file__).resolve().parent.parent / "lean/Verif/Model/Shipped.lean"


def lit(x):
    d = Decimal(x)
    s = format(d, "f")
    return f"({s})" if d < 0 else s


def rows(name, skip):
    with open(DATA / name, encoding="utf-8-sig") as f:
        return list(csv.reader(f))[skip:]


def raw(cells, psr):
    name, lat, lon = cells[0], cells[1], cells[2]
    if psr:
        p = "none" if cells[3] == "NaN" else f"some ({lit(cells[3])}, {lit(cells[4])})"
        diam, age, low, upp = cells[5:9]
    else:
        p = "none"
        diam, age, low, upp = cells[3], cells[6], cells[7], cells[8]
    return (f'  ⟨"{name}", {lit(lat)}, {lit(lon)}, {p}, {lit(diam)}, {lit(age)}, {lit(low)}, '
            f"{lit(upp)}⟩")


def wrap(items, indent, width=98):
    lines, cur = [], indent
    for i, it in enumerate(items):
        piece = it + ("," if i + 1 < len(items) else "")
        if len(cur) + 1 + len(piece) > width:
            lines.append(cur.rstrip())
            cur = indent
        cur += ("" if cur == indent else " ") + piece
    lines.append(cur)
    return "\n".join(lines)


def units(x):
    v = Decimal(x) * 10 ** 10
    assert v == int(v)
    return str(int(v))


craters = rows("crater_list.csv", 1)
basins = rows("basin_list.csv", 1)
lum = rows("bahcall_etal_2001_t2.csv", 2)
hop = rows("ballistic_hop_coldtraps.csv", 1)
melt = rows("ballistic_sed_frac_melted_mean.csv", 0)
temps = melt[0][1:]
melt = melt[1:]
nl = ",\n"
text = f"""import Verif.Model.Main

/-!
# The data files shipped with the package

Written by `tools/shipped.py` from `/repo/moonpies/data`.  Decimal numbers are exact here; Python
rounds them to 64-bit floats, and the melt table to 32-bit floats (`cfg.dtype`, config.py:125).
-/

namespace MoonPIES

/-- A row of a crater or basin file with the decimals of the file. -/
structure FileRow where
  cname : String
  lat : ℚ
  lon : ℚ
  psr : Option (ℚ × ℚ)
  diam : ℚ
  age : ℚ
  age_low : ℚ
  age_upp : ℚ
  deriving DecidableEq

/-- The row as read. -/
noncomputable def FileRow.read (r : FileRow) : RawCrater :=
  {{ cname := r.cname, lat := r.lat, lon := r.lon,
    psr := r.psr.map (fun p => ((p.1 : ℝ), (p.2 : ℝ))), diam := r.diam, age := r.age,
    age_low := r.age_low, age_upp := r.age_upp }}

/-- `crater_list.csv` (columns in config.py:169-171). -/
def craterFile : List FileRow := [
{nl.join(raw(c, True) for c in craters)}]

/-- `basin_list.csv` (columns in config.py:174-175): `diam` is the main ring. -/
def basinFile : List FileRow := [
{nl.join(raw(c, False) for c in basins)}]

/-- `bahcall_etal_2001_t2.csv`: age of the Sun in Gyr, luminosity. -/
def lumFile : List (ℚ × ℚ) := [
{wrap([f"({lit(a)}, {lit(b)})" for a, b in lum], "  ")}]

/-- `ballistic_hop_coldtraps.csv`. -/
def hopFile : List (String × ℚ) := [
{wrap([f'("{a}", {lit(b)})' for a, b in hop], "  ")}]

/-- Temperatures of `ballistic_sed_frac_melted_mean.csv`. -/
def meltTemps : List Nat := [
{wrap(temps, "  ")}]

/-- `ballistic_sed_frac_melted_mean.csv`: mixing ratio and melted fractions, in units of 1e-10. -/
def meltFile : List (Nat × List Nat) := [
{nl.join(f"  ({units(r[0])}, [" + chr(10) + wrap([units(x) for x in r[1:]], "    ") + "])" for r in melt)}]

/-- The shipped melt table. -/
noncomputable def shippedMelt : MeltTable ℝ :=
  {{ temps := meltTemps.map (fun t : Nat => (t : ℝ)),
    rows := meltFile.map (fun r => ((r.1 : ℝ) / 10 ^ 10, r.2.map (fun v : Nat => (v : ℝ) / 10 ^ 10))) }}

/-- The shipped files.  The volcanic species file is left open: mode `NK` always fails
(`C46_refuted`). -/
noncomputable def shippedData (nk : List (ℝ × ℝ)) (sortAges : CraterTable → CraterTable)
    (sortNk : List (ℝ × ℝ) → List (ℝ × ℝ)) (setOrder : List (List Char) → List (List Char)) :
    RunData :=
  {{ craters := craterFile.map FileRow.read, basins := basinFile.map FileRow.read,
    hop := hopFile.map (fun p : String × ℚ => (p.1, (p.2 : ℝ))),
    lum := lumFile.map (fun p : ℚ × ℚ => ((p.1 : ℝ), (p.2 : ℝ))), nk := nk, melt := shippedMelt,
    sortAges := sortAges, sortNk := sortNk, setOrder := setOrder }}

end MoonPIES
"""
OUT.write_text(text)
