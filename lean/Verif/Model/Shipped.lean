import Verif.Model.Main

/-!
# The data files shipped with the package

Written by `tools/shipped.py` from `/repo/moonpies/data`.  Decimal numbers are exact here; Python
rounds them to 64-bit floats, and the melt table to 32-bit floats (`cfg.dtype`, config.py:125).
-/

namespace MoonPIES

/-- A row of a crater or basin file with the decimals of the file. -/
structure FileRow where
  cname : String
  lat : ℚ
  lon : ℚ
  psr : Option (ℚ × ℚ)
  diam : ℚ
  age : ℚ
  age_low : ℚ
  age_upp : ℚ
  deriving DecidableEq

/-- The row as read. -/
noncomputable def FileRow.read (r : FileRow) : RawCrater :=
  { cname := r.cname, lat := r.lat, lon := r.lon,
    psr := r.psr.map (fun p => ((p.1 : ℝ), (p.2 : ℝ))), diam := r.diam, age := r.age,
    age_low := r.age_low, age_upp := r.age_upp }

/-- `crater_list.csv` (columns in config.py:169-171). -/
def craterFile : List FileRow := [
  ⟨"Haworth", (-87.5), 354.8, some ((-87.493), 357.876), 51.4, 4.18, 0.02, 0.02⟩,
  ⟨"Shoemaker", (-88.1), 45.9, some ((-88.026), 45.279), 51.8, 4.15, 0.02, 0.02⟩,
  ⟨"Faustini", (-87.2), 84.3, some ((-87.146), 84.075), 42.5, 4.1, 0.03, 0.03⟩,
  ⟨"Amundsen", (-84.4), 83.1, some ((-83.524), 91.015), 103.4, 3.9, 0.1, 0.1⟩,
  ⟨"Cabeus B", (-82.3), 305.4, some ((-81.691), 305.381), 59.6, 3.9, 0.1, 0.1⟩,
  ⟨"de Gerlache", (-88.5), 271.7, some ((-88.312), 269.143), 32.7, 3.9, 0.1, 0.1⟩,
  ⟨"Hedervari", (-81.9), 85.6, none, 74.1, 3.9, 0.1, 0.1⟩,
  ⟨"Idel'son L", (-84), 118.6, some ((-83.891), 118.47), 28, 3.9, 0.1, 0.1⟩,
  ⟨"Unnamed 1", (-83.7), 69.2, some ((-83.055), 67.449), 57.7, 3.9, 0.1, 0.1⟩,
  ⟨"Cabeus", (-85.3), 317.9, some ((-84.458), 313.432), 100.6, 3.88, 0.1, 0.1⟩,
  ⟨"Nobile", (-85.3), 53.3, some ((-84.551), 60.29), 79.3, 3.8, 0.1, 0.1⟩,
  ⟨"Scott", (-82.4), 48.5, some ((-80.791), 45.506), 107.8, 3.8, 0.1, 0.1⟩,
  ⟨"Scott E", (-81.2), 35.7, some ((-80.982), 35.79), 29.2, 3.8, 0.1, 0.1⟩,
  ⟨"Slater", (-88.1), 111.3, some ((-88.1), 114.782), 25.1, 3.8, 0.1, 0.1⟩,
  ⟨"Sverdrup", (-88.3), 206.6, some ((-88.249), 216.455), 32.8, 3.8, 0.1, 0.1⟩,
  ⟨"Wiechert P", (-85.1), 151.8, some ((-84.755), 150.077), 38.6, 3.8, 0.1, 0.1⟩,
  ⟨"Unnamed 2", (-82.2), 10.6, some ((-82.402), 11.498), 26.8, 3.7, 0.1, 0.1⟩,
  ⟨"Wiechert", (-84), 164.7, some ((-83.74), 163.086), 40.8, 3.7, 0.2, 0.1⟩,
  ⟨"Idel'son", (-81.3), 112.7, none, 59.8, 3.5, 0.5, 0.1⟩,
  ⟨"Unnamed 3", (-83.9), 338.3, some ((-83.767), 338.771), 22.3, 3.4, 0.5, 0.1⟩,
  ⟨"Wiechert U", (-83.4), 149, some ((-83.295), 149.545), 30, 3.4, 0.7, 0.1⟩,
  ⟨"Wiechert J", (-85.2), 182.4, some ((-85.023), 182.607), 34.9, 3.2, 0.1, 0.3⟩,
  ⟨"Shackleton", (-89.7), 129.8, some ((-89.645), 128.203), 20.9, 3.15, 0.08, 0.05⟩,
  ⟨"Amundsen C", (-80.8), 85.2, none, 24.2, 1.8, 0.2, 0.2⟩]

/-- `basin_list.csv` (columns in config.py:174-175): `diam` is the main ring. -/
def basinFile : List FileRow := [
  ⟨"Cruger-Sirsalis", (-16), 293, none, 430, 4.26, 0.041, 0.032⟩,
  ⟨"Amundsen-Ganswindt", (-81), 123, none, 378, 4.26, 0.052, 0.038⟩,
  ⟨"Dirichlet-Jackson", 13.4, 201.8, none, 452, 4.23, 0.026, 0.022⟩,
  ⟨"Serenitatis", 25.4, 18.8, none, 923, 4.22, 0.033, 0.027⟩,
  ⟨"Poincare", (-57.3), 163.1, none, 312, 4.23, 0.04, 0.031⟩,
  ⟨"Coulomb-Sarton", 51.2, 237.5, none, 672, 4.23, 0.03, 0.025⟩,
  ⟨"Lorentz", 34.2, 263, none, 351, 4.2, 0.036, 0.029⟩,
  ⟨"Schiller-Zucchius", (-55.7), 314.8, none, 361, 4.24, 0.052, 0.038⟩,
  ⟨"Birkhoff", 58.9, 213.4, none, 334, 4.29, 0.047, 0.035⟩,
  ⟨"Ingenii", (-32.8), 163.8, none, 342, 4.28, 0.047, 0.035⟩,
  ⟨"Fitzgerald-Jackson", 25.1, 190.6, none, 600, 4.26, 0.063, 0.044⟩,
  ⟨"Freundlich-Sharanov", 18.35, 175.2, none, 582, 4.14, 0.023, 0.019⟩,
  ⟨"Nectaris", (-15.6), 35.1, none, 885, 4.17, 0.014, 0.012⟩,
  ⟨"Grimaldi", (-5), 291.3, none, 460, 4.14, 0.044, 0.033⟩,
  ⟨"Mendel-Rydberg", (-49.8), 265.4, none, 650, 4.13, 0.026, 0.022⟩,
  ⟨"Apollo", (-36.1), 208.3, none, 492, 4.14, 0.029, 0.024⟩,
  ⟨"Planck", (-57.4), 135.1, none, 321, 4.13, 0.053, 0.038⟩,
  ⟨"Moscoviense", 26.1, 147, none, 421, 4.09, 0.024, 0.02⟩,
  ⟨"Korolev", (-4.4), 202.2, none, 417, 4.11, 0.025, 0.021⟩,
  ⟨"Mendeleev", 5.5, 141.1, none, 331, 4.13, 0.064, 0.044⟩,
  ⟨"Humorum", (-23.8), 320.8, none, 816, 4.09, 0.027, 0.023⟩,
  ⟨"Hertzsprung", 2, 231, none, 571, 4.09, 0.037, 0.03⟩,
  ⟨"Crisium", 16.8, 58.4, none, 1076, 4.07, 0.018, 0.016⟩,
  ⟨"Humboldtianum", 57.26, 82, none, 618, 4.08, 0.032, 0.026⟩,
  ⟨"Imbrium", 37, 341.5, none, 1321, 3.87, 0.046, 0.035⟩,
  ⟨"Schrodinger", (-74.9), 133.5, none, 326, 3.86, 0.03, 0.025⟩,
  ⟨"Orientale", (-20.1), 265.2, none, 937, 3.81, 0.0085, 0.0081⟩]

/-- `bahcall_etal_2001_t2.csv`: age of the Sun in Gyr, luminosity. -/
def lumFile : List (ℚ × ℚ) := [
  (0, 0.677), (0.2, 0.721), (0.4, 0.733), (0.6, 0.744), (0.8, 0.754), (1, 0.764), (1.2, 0.775),
  (1.4, 0.786), (1.6, 0.797), (1.8, 0.808), (2, 0.82), (2.2, 0.831), (2.4, 0.844), (2.6, 0.856),
  (2.8, 0.869), (3, 0.882), (3.2, 0.896), (3.4, 0.91), (3.6, 0.924), (3.8, 0.939), (4, 0.954),
  (4.2, 0.97), (4.4, 0.986), (4.6, 1.003), (4.8, 1.02), (5, 1.037), (5.2, 1.055), (5.4, 1.073),
  (5.6, 1.092), (5.8, 1.112), (6, 1.132), (6.2, 1.152), (6.4, 1.172), (6.6, 1.193), (6.8, 1.214),
  (7, 1.235), (7.2, 1.256), (7.4, 1.278), (7.6, 1.304), (7.8, 1.332), (8, 1.363)]

/-- `ballistic_hop_coldtraps.csv`. -/
def hopFile : List (String × ℚ) := [
  ("Haworth", 0.024314361795366585), ("Shoemaker", 0.01697842004872681),
  ("Faustini", 0.062161999379547535), ("Amundsen", 0.062161999379547535),
  ("Cabeus", 0.062161999379547535), ("Cabeus B", 0.062161999379547535),
  ("de Gerlache", 0.018351603725520863), ("Idel'son L", 0.062161999379547535),
  ("Sverdrup", 0.021138131396110177), ("Shackleton", 0.005508568156485407),
  ("Wiechert J", 0.062161999379547535), ("Slater", 0.018822718390119283)]

/-- Temperatures of `ballistic_sed_frac_melted_mean.csv`. -/
def meltTemps : List Nat := [
  110, 115, 120, 125, 130, 135, 140, 145, 150, 155, 160, 165, 170, 175, 180, 185, 190, 195, 200,
  205, 210, 215, 220, 225, 230, 235, 240, 245, 250, 255, 260, 265, 270, 275, 280, 285, 290, 295,
  300, 305, 310, 315, 320, 325, 330, 335, 340, 345, 350, 355, 360, 365, 370, 375, 380, 385, 390,
  395, 400, 405, 410, 415, 420, 425, 430, 435, 440, 445, 450, 455, 460, 465, 470, 475, 480, 485,
  490, 495, 500, 505, 510]

/-- `ballistic_sed_frac_melted_mean.csv`: mixing ratio and melted fractions, in units of 1e-10. -/
def meltFile : List (Nat × List Nat) := [
  (0, [
    10000000000, 10000000000, 10000000000, 10000000000, 10000000000, 10000000000, 10000000000,
    10000000000, 10000000000, 10000000000, 10000000000, 10000000000, 10000000000, 10000000000,
    10000000000, 10000000000, 10000000000, 10000000000, 10000000000, 10000000000, 10000000000,
    10000000000, 10000000000, 10000000000, 10000000000, 10000000000, 10000000000, 10000000000,
    10000000000, 10000000000, 10000000000, 10000000000, 10000000000, 10000000000, 10000000000,
    10000000000, 10000000000, 10000000000, 10000000000, 10000000000, 10000000000, 10000000000,
    10000000000, 10000000000, 10000000000, 10000000000, 10000000000, 10000000000, 10000000000,
    10000000000, 10000000000, 10000000000, 10000000000, 10000000000, 10000000000, 10000000000,
    10000000000, 10000000000, 10000000000, 10000000000, 10000000000, 10000000000, 10000000000,
    10000000000, 10000000000, 10000000000, 10000000000, 10000000000, 10000000000, 10000000000,
    10000000000, 10000000000, 10000000000, 10000000000, 10000000000, 10000000000, 10000000000,
    10000000000, 10000000000, 10000000000, 10000000000]),
  (256410000, [
    0, 6760000000, 9900000000, 10000000000, 10000000000, 10000000000, 10000000000, 10000000000,
    10000000000, 10000000000, 10000000000, 10000000000, 10000000000, 10000000000, 10000000000,
    10000000000, 10000000000, 10000000000, 10000000000, 10000000000, 10000000000, 10000000000,
    10000000000, 10000000000, 10000000000, 10000000000, 10000000000, 10000000000, 10000000000,
    10000000000, 10000000000, 10000000000, 10000000000, 10000000000, 10000000000, 10000000000,
    10000000000, 10000000000, 10000000000, 10000000000, 10000000000, 10000000000, 10000000000,
    10000000000, 10000000000, 10000000000, 10000000000, 10000000000, 10000000000, 10000000000,
    10000000000, 10000000000, 10000000000, 10000000000, 10000000000, 10000000000, 10000000000,
    10000000000, 10000000000, 10000000000, 10000000000, 10000000000, 10000000000, 10000000000,
    10000000000, 10000000000, 10000000000, 10000000000, 10000000000, 10000000000, 10000000000,
    10000000000, 10000000000, 10000000000, 10000000000, 10000000000, 10000000000, 10000000000,
    10000000000, 10000000000, 10000000000]),
  (526316000, [
    0, 4880000000, 9410000000, 10000000000, 10000000000, 10000000000, 10000000000, 10000000000,
    10000000000, 10000000000, 10000000000, 10000000000, 10000000000, 10000000000, 10000000000,
    10000000000, 10000000000, 10000000000, 10000000000, 10000000000, 10000000000, 10000000000,
    10000000000, 10000000000, 10000000000, 10000000000, 10000000000, 10000000000, 10000000000,
    10000000000, 10000000000, 10000000000, 10000000000, 10000000000, 10000000000, 10000000000,
    10000000000, 10000000000, 10000000000, 10000000000, 10000000000, 10000000000, 10000000000,
    10000000000, 10000000000, 10000000000, 10000000000, 10000000000, 10000000000, 10000000000,
    10000000000, 10000000000, 10000000000, 10000000000, 10000000000, 10000000000, 10000000000,
    10000000000, 10000000000, 10000000000, 10000000000, 10000000000, 10000000000, 10000000000,
    10000000000, 10000000000, 10000000000, 10000000000, 10000000000, 10000000000, 10000000000,
    10000000000, 10000000000, 10000000000, 10000000000, 10000000000, 10000000000, 10000000000,
    10000000000, 10000000000, 10000000000]),
  (810811000, [
    0, 3320000000, 8786670000, 9873330000, 10000000000, 10000000000, 10000000000, 10000000000,
    10000000000, 10000000000, 10000000000, 10000000000, 10000000000, 10000000000, 10000000000,
    10000000000, 10000000000, 10000000000, 10000000000, 10000000000, 10000000000, 10000000000,
    10000000000, 10000000000, 10000000000, 10000000000, 10000000000, 10000000000, 10000000000,
    10000000000, 10000000000, 10000000000, 10000000000, 10000000000, 10000000000, 10000000000,
    10000000000, 10000000000, 10000000000, 10000000000, 10000000000, 10000000000, 10000000000,
    10000000000, 10000000000, 10000000000, 10000000000, 10000000000, 10000000000, 10000000000,
    10000000000, 10000000000, 10000000000, 10000000000, 10000000000, 10000000000, 10000000000,
    10000000000, 10000000000, 10000000000, 10000000000, 10000000000, 10000000000, 10000000000,
    10000000000, 10000000000, 10000000000, 10000000000, 10000000000, 10000000000, 10000000000,
    10000000000, 10000000000, 10000000000, 10000000000, 10000000000, 10000000000, 10000000000,
    10000000000, 10000000000, 10000000000]),
  (1111110000, [
    0, 2070000000, 7870000000, 9665000000, 10000000000, 10000000000, 10000000000, 10000000000,
    10000000000, 10000000000, 10000000000, 10000000000, 10000000000, 10000000000, 10000000000,
    10000000000, 10000000000, 10000000000, 10000000000, 10000000000, 10000000000, 10000000000,
    10000000000, 10000000000, 10000000000, 10000000000, 10000000000, 10000000000, 10000000000,
    10000000000, 10000000000, 10000000000, 10000000000, 10000000000, 10000000000, 10000000000,
    10000000000, 10000000000, 10000000000, 10000000000, 10000000000, 10000000000, 10000000000,
    10000000000, 10000000000, 10000000000, 10000000000, 10000000000, 10000000000, 10000000000,
    10000000000, 10000000000, 10000000000, 10000000000, 10000000000, 10000000000, 10000000000,
    10000000000, 10000000000, 10000000000, 10000000000, 10000000000, 10000000000, 10000000000,
    10000000000, 10000000000, 10000000000, 10000000000, 10000000000, 10000000000, 10000000000,
    10000000000, 10000000000, 10000000000, 10000000000, 10000000000, 10000000000, 10000000000,
    10000000000, 10000000000, 10000000000]),
  (1428570000, [
    0, 1356000000, 6564000000, 9420000000, 9964000000, 10000000000, 10000000000, 10000000000,
    10000000000, 10000000000, 10000000000, 10000000000, 10000000000, 10000000000, 10000000000,
    10000000000, 10000000000, 10000000000, 10000000000, 10000000000, 10000000000, 10000000000,
    10000000000, 10000000000, 10000000000, 10000000000, 10000000000, 10000000000, 10000000000,
    10000000000, 10000000000, 10000000000, 10000000000, 10000000000, 10000000000, 10000000000,
    10000000000, 10000000000, 10000000000, 10000000000, 10000000000, 10000000000, 10000000000,
    10000000000, 10000000000, 10000000000, 10000000000, 10000000000, 10000000000, 10000000000,
    10000000000, 10000000000, 10000000000, 10000000000, 10000000000, 10000000000, 10000000000,
    10000000000, 10000000000, 10000000000, 10000000000, 10000000000, 10000000000, 10000000000,
    10000000000, 10000000000, 10000000000, 10000000000, 10000000000, 10000000000, 10000000000,
    10000000000, 10000000000, 10000000000, 10000000000, 10000000000, 10000000000, 10000000000,
    10000000000, 10000000000, 10000000000]),
  (1764710000, [
    0, 736667000, 5146670000, 8653330000, 9723330000, 9996670000, 10000000000, 10000000000,
    10000000000, 10000000000, 10000000000, 10000000000, 10000000000, 10000000000, 10000000000,
    10000000000, 10000000000, 10000000000, 10000000000, 10000000000, 10000000000, 10000000000,
    10000000000, 10000000000, 10000000000, 10000000000, 10000000000, 10000000000, 10000000000,
    10000000000, 10000000000, 10000000000, 10000000000, 10000000000, 10000000000, 10000000000,
    10000000000, 10000000000, 10000000000, 10000000000, 10000000000, 10000000000, 10000000000,
    10000000000, 10000000000, 10000000000, 10000000000, 10000000000, 10000000000, 10000000000,
    10000000000, 10000000000, 10000000000, 10000000000, 10000000000, 10000000000, 10000000000,
    10000000000, 10000000000, 10000000000, 10000000000, 10000000000, 10000000000, 10000000000,
    10000000000, 10000000000, 10000000000, 10000000000, 10000000000, 10000000000, 10000000000,
    10000000000, 10000000000, 10000000000, 10000000000, 10000000000, 10000000000, 10000000000,
    10000000000, 10000000000, 10000000000]),
  (2121210000, [
    0, 448571000, 4185710000, 7982860000, 9528570000, 9945710000, 10000000000, 10000000000,
    10000000000, 10000000000, 10000000000, 10000000000, 10000000000, 10000000000, 10000000000,
    10000000000, 10000000000, 10000000000, 10000000000, 10000000000, 10000000000, 10000000000,
    10000000000, 10000000000, 10000000000, 10000000000, 10000000000, 10000000000, 10000000000,
    10000000000, 10000000000, 10000000000, 10000000000, 10000000000, 10000000000, 10000000000,
    10000000000, 10000000000, 10000000000, 10000000000, 10000000000, 10000000000, 10000000000,
    10000000000, 10000000000, 10000000000, 10000000000, 10000000000, 10000000000, 10000000000,
    10000000000, 10000000000, 10000000000, 10000000000, 10000000000, 10000000000, 10000000000,
    10000000000, 10000000000, 10000000000, 10000000000, 10000000000, 10000000000, 10000000000,
    10000000000, 10000000000, 10000000000, 10000000000, 10000000000, 10000000000, 10000000000,
    10000000000, 10000000000, 10000000000, 10000000000, 10000000000, 10000000000, 10000000000,
    10000000000, 10000000000, 10000000000]),
  (2500000000, [
    0, 255000000, 2902500000, 6890000000, 9092500000, 9830000000, 9990000000, 10000000000,
    10000000000, 10000000000, 10000000000, 10000000000, 10000000000, 10000000000, 10000000000,
    10000000000, 10000000000, 10000000000, 10000000000, 10000000000, 10000000000, 10000000000,
    10000000000, 10000000000, 10000000000, 10000000000, 10000000000, 10000000000, 10000000000,
    10000000000, 10000000000, 10000000000, 10000000000, 10000000000, 10000000000, 10000000000,
    10000000000, 10000000000, 10000000000, 10000000000, 10000000000, 10000000000, 10000000000,
    10000000000, 10000000000, 10000000000, 10000000000, 10000000000, 10000000000, 10000000000,
    10000000000, 10000000000, 10000000000, 10000000000, 10000000000, 10000000000, 10000000000,
    10000000000, 10000000000, 10000000000, 10000000000, 10000000000, 10000000000, 10000000000,
    10000000000, 10000000000, 10000000000, 10000000000, 10000000000, 10000000000, 10000000000,
    10000000000, 10000000000, 10000000000, 10000000000, 10000000000, 10000000000, 10000000000,
    10000000000, 10000000000, 10000000000]),
  (2903230000, [
    0, 110619000, 2079650000, 5809730000, 8424780000, 9623890000, 9909290000, 9980090000,
    10000000000, 10000000000, 10000000000, 10000000000, 10000000000, 10000000000, 10000000000,
    10000000000, 10000000000, 10000000000, 10000000000, 10000000000, 10000000000, 10000000000,
    10000000000, 10000000000, 10000000000, 10000000000, 10000000000, 10000000000, 10000000000,
    10000000000, 10000000000, 10000000000, 10000000000, 10000000000, 10000000000, 10000000000,
    10000000000, 10000000000, 10000000000, 10000000000, 10000000000, 10000000000, 10000000000,
    10000000000, 10000000000, 10000000000, 10000000000, 10000000000, 10000000000, 10000000000,
    10000000000, 10000000000, 10000000000, 10000000000, 10000000000, 10000000000, 10000000000,
    10000000000, 10000000000, 10000000000, 10000000000, 10000000000, 10000000000, 10000000000,
    10000000000, 10000000000, 10000000000, 10000000000, 10000000000, 10000000000, 10000000000,
    10000000000, 10000000000, 10000000000, 10000000000, 10000000000, 10000000000, 10000000000,
    10000000000, 10000000000, 10000000000]),
  (3333330000, [
    0, 60000000, 1416000000, 4814000000, 7912000000, 9220000000, 9818000000, 9994000000,
    10000000000, 10000000000, 10000000000, 10000000000, 10000000000, 10000000000, 10000000000,
    10000000000, 10000000000, 10000000000, 10000000000, 10000000000, 10000000000, 10000000000,
    10000000000, 10000000000, 10000000000, 10000000000, 10000000000, 10000000000, 10000000000,
    10000000000, 10000000000, 10000000000, 10000000000, 10000000000, 10000000000, 10000000000,
    10000000000, 10000000000, 10000000000, 10000000000, 10000000000, 10000000000, 10000000000,
    10000000000, 10000000000, 10000000000, 10000000000, 10000000000, 10000000000, 10000000000,
    10000000000, 10000000000, 10000000000, 10000000000, 10000000000, 10000000000, 10000000000,
    10000000000, 10000000000, 10000000000, 10000000000, 10000000000, 10000000000, 10000000000,
    10000000000, 10000000000, 10000000000, 10000000000, 10000000000, 10000000000, 10000000000,
    10000000000, 10000000000, 10000000000, 10000000000, 10000000000, 10000000000, 10000000000,
    10000000000, 10000000000, 10000000000]),
  (3793100000, [
    0, 20000000, 1036360000, 3634550000, 6745450000, 8774550000, 9603640000, 9910910000,
    9998180000, 10000000000, 10000000000, 10000000000, 10000000000, 10000000000, 10000000000,
    10000000000, 10000000000, 10000000000, 10000000000, 10000000000, 10000000000, 10000000000,
    10000000000, 10000000000, 10000000000, 10000000000, 10000000000, 10000000000, 10000000000,
    10000000000, 10000000000, 10000000000, 10000000000, 10000000000, 10000000000, 10000000000,
    10000000000, 10000000000, 10000000000, 10000000000, 10000000000, 10000000000, 10000000000,
    10000000000, 10000000000, 10000000000, 10000000000, 10000000000, 10000000000, 10000000000,
    10000000000, 10000000000, 10000000000, 10000000000, 10000000000, 10000000000, 10000000000,
    10000000000, 10000000000, 10000000000, 10000000000, 10000000000, 10000000000, 10000000000,
    10000000000, 10000000000, 10000000000, 10000000000, 10000000000, 10000000000, 10000000000,
    10000000000, 10000000000, 10000000000, 10000000000, 10000000000, 10000000000, 10000000000,
    10000000000, 10000000000, 10000000000]),
  (4285710000, [
    0, 20000000, 660000000, 2740000000, 5633330000, 8173330000, 9413330000, 9828330000,
    9945000000, 9963330000, 9991670000, 10000000000, 10000000000, 10000000000, 10000000000,
    10000000000, 10000000000, 10000000000, 10000000000, 10000000000, 10000000000, 10000000000,
    10000000000, 10000000000, 10000000000, 10000000000, 10000000000, 10000000000, 10000000000,
    10000000000, 10000000000, 10000000000, 10000000000, 10000000000, 10000000000, 10000000000,
    10000000000, 10000000000, 10000000000, 10000000000, 10000000000, 10000000000, 10000000000,
    10000000000, 10000000000, 10000000000, 10000000000, 10000000000, 10000000000, 10000000000,
    10000000000, 10000000000, 10000000000, 10000000000, 10000000000, 10000000000, 10000000000,
    10000000000, 10000000000, 10000000000, 10000000000, 10000000000, 10000000000, 10000000000,
    10000000000, 10000000000, 10000000000, 10000000000, 10000000000, 10000000000, 10000000000,
    10000000000, 10000000000, 10000000000, 10000000000, 10000000000, 10000000000, 10000000000,
    10000000000, 10000000000, 10000000000]),
  (4814810000, [
    0, 6153850, 410769000, 1916920000, 4540000000, 7090770000, 8889230000, 9707690000, 9938460000,
    9981540000, 9993850000, 10000000000, 10000000000, 10000000000, 10000000000, 10000000000,
    10000000000, 10000000000, 10000000000, 10000000000, 10000000000, 10000000000, 10000000000,
    10000000000, 10000000000, 10000000000, 10000000000, 10000000000, 10000000000, 10000000000,
    10000000000, 10000000000, 10000000000, 10000000000, 10000000000, 10000000000, 10000000000,
    10000000000, 10000000000, 10000000000, 10000000000, 10000000000, 10000000000, 10000000000,
    10000000000, 10000000000, 10000000000, 10000000000, 10000000000, 10000000000, 10000000000,
    10000000000, 10000000000, 10000000000, 10000000000, 10000000000, 10000000000, 10000000000,
    10000000000, 10000000000, 10000000000, 10000000000, 10000000000, 10000000000, 10000000000,
    10000000000, 10000000000, 10000000000, 10000000000, 10000000000, 10000000000, 10000000000,
    10000000000, 10000000000, 10000000000, 10000000000, 10000000000, 10000000000, 10000000000,
    10000000000, 10000000000]),
  (5384620000, [
    0, 2849000, 280627000, 1433050000, 3608260000, 6170940000, 8180910000, 9321940000, 9727920000,
    9901710000, 9964390000, 9994300000, 10000000000, 10000000000, 10000000000, 10000000000,
    10000000000, 10000000000, 10000000000, 10000000000, 10000000000, 10000000000, 10000000000,
    10000000000, 10000000000, 10000000000, 10000000000, 10000000000, 10000000000, 10000000000,
    10000000000, 10000000000, 10000000000, 10000000000, 10000000000, 10000000000, 10000000000,
    10000000000, 10000000000, 10000000000, 10000000000, 10000000000, 10000000000, 10000000000,
    10000000000, 10000000000, 10000000000, 10000000000, 10000000000, 10000000000, 10000000000,
    10000000000, 10000000000, 10000000000, 10000000000, 10000000000, 10000000000, 10000000000,
    10000000000, 10000000000, 10000000000, 10000000000, 10000000000, 10000000000, 10000000000,
    10000000000, 10000000000, 10000000000, 10000000000, 10000000000, 10000000000, 10000000000,
    10000000000, 10000000000, 10000000000, 10000000000, 10000000000, 10000000000, 10000000000,
    10000000000, 10000000000]),
  (6000000000, [
    0, 2666670, 162667000, 946667000, 2712000000, 4980000000, 7180000000, 8738670000, 9568000000,
    9834670000, 9948000000, 9977330000, 10000000000, 10000000000, 10000000000, 10000000000,
    10000000000, 10000000000, 10000000000, 10000000000, 10000000000, 10000000000, 10000000000,
    10000000000, 10000000000, 10000000000, 10000000000, 10000000000, 10000000000, 10000000000,
    10000000000, 10000000000, 10000000000, 10000000000, 10000000000, 10000000000, 10000000000,
    10000000000, 10000000000, 10000000000, 10000000000, 10000000000, 10000000000, 10000000000,
    10000000000, 10000000000, 10000000000, 10000000000, 10000000000, 10000000000, 10000000000,
    10000000000, 10000000000, 10000000000, 10000000000, 10000000000, 10000000000, 10000000000,
    10000000000, 10000000000, 10000000000, 10000000000, 10000000000, 10000000000, 10000000000,
    10000000000, 10000000000, 10000000000, 10000000000, 10000000000, 10000000000, 10000000000,
    10000000000, 10000000000, 10000000000, 10000000000, 10000000000, 10000000000, 10000000000,
    10000000000, 10000000000]),
  (6666670000, [
    0, 2500000, 107500000, 730000000, 2080000000, 4117500000, 6173750000, 7920000000, 8912500000,
    9522500000, 9861250000, 9948750000, 9995000000, 10000000000, 10000000000, 10000000000,
    10000000000, 10000000000, 10000000000, 10000000000, 10000000000, 10000000000, 10000000000,
    10000000000, 10000000000, 10000000000, 10000000000, 10000000000, 10000000000, 10000000000,
    10000000000, 10000000000, 10000000000, 10000000000, 10000000000, 10000000000, 10000000000,
    10000000000, 10000000000, 10000000000, 10000000000, 10000000000, 10000000000, 10000000000,
    10000000000, 10000000000, 10000000000, 10000000000, 10000000000, 10000000000, 10000000000,
    10000000000, 10000000000, 10000000000, 10000000000, 10000000000, 10000000000, 10000000000,
    10000000000, 10000000000, 10000000000, 10000000000, 10000000000, 10000000000, 10000000000,
    10000000000, 10000000000, 10000000000, 10000000000, 10000000000, 10000000000, 10000000000,
    10000000000, 10000000000, 10000000000, 10000000000, 10000000000, 10000000000, 10000000000,
    10000000000, 10000000000]),
  (7391300000, [
    0, 0, 81176500, 529412000, 1509410000, 3104710000, 5110590000, 7018820000, 8387060000,
    9212940000, 9771760000, 9948240000, 9981180000, 10000000000, 10000000000, 10000000000,
    10000000000, 10000000000, 10000000000, 10000000000, 10000000000, 10000000000, 10000000000,
    10000000000, 10000000000, 10000000000, 10000000000, 10000000000, 10000000000, 10000000000,
    10000000000, 10000000000, 10000000000, 10000000000, 10000000000, 10000000000, 10000000000,
    10000000000, 10000000000, 10000000000, 10000000000, 10000000000, 10000000000, 10000000000,
    10000000000, 10000000000, 10000000000, 10000000000, 10000000000, 10000000000, 10000000000,
    10000000000, 10000000000, 10000000000, 10000000000, 10000000000, 10000000000, 10000000000,
    10000000000, 10000000000, 10000000000, 10000000000, 10000000000, 10000000000, 10000000000,
    10000000000, 10000000000, 10000000000, 10000000000, 10000000000, 10000000000, 10000000000,
    10000000000, 10000000000, 10000000000, 10000000000, 10000000000, 10000000000, 10000000000,
    10000000000, 10000000000]),
  (8181820000, [
    0, 0, 54444400, 384444000, 1165560000, 2370000000, 3962220000, 6008890000, 7570000000,
    8690000000, 9412220000, 9750000000, 9902220000, 9951110000, 10000000000, 10000000000,
    10000000000, 10000000000, 10000000000, 10000000000, 10000000000, 10000000000, 10000000000,
    10000000000, 10000000000, 10000000000, 10000000000, 10000000000, 10000000000, 10000000000,
    10000000000, 10000000000, 10000000000, 10000000000, 10000000000, 10000000000, 10000000000,
    10000000000, 10000000000, 10000000000, 10000000000, 10000000000, 10000000000, 10000000000,
    10000000000, 10000000000, 10000000000, 10000000000, 10000000000, 10000000000, 10000000000,
    10000000000, 10000000000, 10000000000, 10000000000, 10000000000, 10000000000, 10000000000,
    10000000000, 10000000000, 10000000000, 10000000000, 10000000000, 10000000000, 10000000000,
    10000000000, 10000000000, 10000000000, 10000000000, 10000000000, 10000000000, 10000000000,
    10000000000, 10000000000, 10000000000, 10000000000, 10000000000, 10000000000, 10000000000,
    10000000000, 10000000000]),
  (9047620000, [
    0, 0, 24159700, 245798000, 859244000, 1851890000, 3216390000, 4908610000, 6608190000,
    8033610000, 8918070000, 9473740000, 9740550000, 9927520000, 9983190000, 9993700000,
    10000000000, 10000000000, 10000000000, 10000000000, 10000000000, 10000000000, 10000000000,
    10000000000, 10000000000, 10000000000, 10000000000, 10000000000, 10000000000, 10000000000,
    10000000000, 10000000000, 10000000000, 10000000000, 10000000000, 10000000000, 10000000000,
    10000000000, 10000000000, 10000000000, 10000000000, 10000000000, 10000000000, 10000000000,
    10000000000, 10000000000, 10000000000, 10000000000, 10000000000, 10000000000, 10000000000,
    10000000000, 10000000000, 10000000000, 10000000000, 10000000000, 10000000000, 10000000000,
    10000000000, 10000000000, 10000000000, 10000000000, 10000000000, 10000000000, 10000000000,
    10000000000, 10000000000, 10000000000, 10000000000, 10000000000, 10000000000, 10000000000,
    10000000000, 10000000000, 10000000000, 10000000000, 10000000000, 10000000000, 10000000000,
    10000000000, 10000000000]),
  (10000000000, [
    0, 0, 13000000, 163000000, 596000000, 1343000000, 2468000000, 4033000000, 5567000000,
    7110000000, 8357000000, 9145000000, 9547000000, 9778000000, 9919000000, 9978000000,
    10000000000, 10000000000, 10000000000, 10000000000, 10000000000, 10000000000, 10000000000,
    10000000000, 10000000000, 10000000000, 10000000000, 10000000000, 10000000000, 10000000000,
    10000000000, 10000000000, 10000000000, 10000000000, 10000000000, 10000000000, 10000000000,
    10000000000, 10000000000, 10000000000, 10000000000, 10000000000, 10000000000, 10000000000,
    10000000000, 10000000000, 10000000000, 10000000000, 10000000000, 10000000000, 10000000000,
    10000000000, 10000000000, 10000000000, 10000000000, 10000000000, 10000000000, 10000000000,
    10000000000, 10000000000, 10000000000, 10000000000, 10000000000, 10000000000, 10000000000,
    10000000000, 10000000000, 10000000000, 10000000000, 10000000000, 10000000000, 10000000000,
    10000000000, 10000000000, 10000000000, 10000000000, 10000000000, 10000000000, 10000000000,
    10000000000, 10000000000]),
  (11052600000, [
    0, 0, 9523810, 109524000, 439048000, 1008570000, 1878100000, 3277140000, 4582860000,
    5994290000, 7356190000, 8300950000, 8938100000, 9381900000, 9686670000, 9872380000,
    9968570000, 9991430000, 10000000000, 10000000000, 10000000000, 10000000000, 10000000000,
    10000000000, 10000000000, 10000000000, 10000000000, 10000000000, 10000000000, 10000000000,
    10000000000, 10000000000, 10000000000, 10000000000, 10000000000, 10000000000, 10000000000,
    10000000000, 10000000000, 10000000000, 10000000000, 10000000000, 10000000000, 10000000000,
    10000000000, 10000000000, 10000000000, 10000000000, 10000000000, 10000000000, 10000000000,
    10000000000, 10000000000, 10000000000, 10000000000, 10000000000, 10000000000, 10000000000,
    10000000000, 10000000000, 10000000000, 10000000000, 10000000000, 10000000000, 10000000000,
    10000000000, 10000000000, 10000000000, 10000000000, 10000000000, 10000000000, 10000000000,
    10000000000, 10000000000, 10000000000, 10000000000, 10000000000, 10000000000, 10000000000,
    10000000000, 10000000000]),
  (12222200000, [
    0, 0, 7259530, 68965500, 313067000, 739564000, 1420150000, 2490020000, 3449180000, 4870240000,
    6131580000, 7362070000, 8341200000, 9071690000, 9484570000, 9774950000, 9884750000,
    9943740000, 9977310000, 9988200000, 9993650000, 10000000000, 10000000000, 10000000000,
    10000000000, 10000000000, 10000000000, 10000000000, 10000000000, 10000000000, 10000000000,
    10000000000, 10000000000, 10000000000, 10000000000, 10000000000, 10000000000, 10000000000,
    10000000000, 10000000000, 10000000000, 10000000000, 10000000000, 10000000000, 10000000000,
    10000000000, 10000000000, 10000000000, 10000000000, 10000000000, 10000000000, 10000000000,
    10000000000, 10000000000, 10000000000, 10000000000, 10000000000, 10000000000, 10000000000,
    10000000000, 10000000000, 10000000000, 10000000000, 10000000000, 10000000000, 10000000000,
    10000000000, 10000000000, 10000000000, 10000000000, 10000000000, 10000000000, 10000000000,
    10000000000, 10000000000, 10000000000, 10000000000, 10000000000, 10000000000, 10000000000,
    10000000000]),
  (13529400000, [
    0, 0, 3478260, 45217400, 232174000, 563478000, 1040870000, 1859130000, 2700870000, 3855650000,
    5186090000, 6393910000, 7446960000, 8247830000, 8820870000, 9280870000, 9600000000,
    9813040000, 9919130000, 9965220000, 9985220000, 10000000000, 10000000000, 10000000000,
    10000000000, 10000000000, 10000000000, 10000000000, 10000000000, 10000000000, 10000000000,
    10000000000, 10000000000, 10000000000, 10000000000, 10000000000, 10000000000, 10000000000,
    10000000000, 10000000000, 10000000000, 10000000000, 10000000000, 10000000000, 10000000000,
    10000000000, 10000000000, 10000000000, 10000000000, 10000000000, 10000000000, 10000000000,
    10000000000, 10000000000, 10000000000, 10000000000, 10000000000, 10000000000, 10000000000,
    10000000000, 10000000000, 10000000000, 10000000000, 10000000000, 10000000000, 10000000000,
    10000000000, 10000000000, 10000000000, 10000000000, 10000000000, 10000000000, 10000000000,
    10000000000, 10000000000, 10000000000, 10000000000, 10000000000, 10000000000, 10000000000,
    10000000000]),
  (15000000000, [
    0, 0, 3327790, 30782000, 162230000, 404326000, 805324000, 1523290000, 2223790000, 3108150000,
    4130620000, 5124790000, 6209650000, 7200500000, 8031610000, 8617300000, 9121460000,
    9469220000, 9697170000, 9822800000, 9897670000, 9933440000, 9953410000, 9972550000,
    10000000000, 10000000000, 10000000000, 10000000000, 10000000000, 10000000000, 10000000000,
    10000000000, 10000000000, 10000000000, 10000000000, 10000000000, 10000000000, 10000000000,
    10000000000, 10000000000, 10000000000, 10000000000, 10000000000, 10000000000, 10000000000,
    10000000000, 10000000000, 10000000000, 10000000000, 10000000000, 10000000000, 10000000000,
    10000000000, 10000000000, 10000000000, 10000000000, 10000000000, 10000000000, 10000000000,
    10000000000, 10000000000, 10000000000, 10000000000, 10000000000, 10000000000, 10000000000,
    10000000000, 10000000000, 10000000000, 10000000000, 10000000000, 10000000000, 10000000000,
    10000000000, 10000000000, 10000000000, 10000000000, 10000000000, 10000000000, 10000000000,
    10000000000]),
  (16666700000, [
    0, 0, 0, 21600000, 113600000, 284000000, 536000000, 1119200000, 1624000000, 2440000000,
    3338400000, 4116800000, 5041600000, 6019200000, 7040000000, 7782400000, 8433600000,
    8928800000, 9343200000, 9649600000, 9801600000, 9852800000, 9904000000, 9954400000,
    9976800000, 9994400000, 10000000000, 10000000000, 10000000000, 10000000000, 10000000000,
    10000000000, 10000000000, 10000000000, 10000000000, 10000000000, 10000000000, 10000000000,
    10000000000, 10000000000, 10000000000, 10000000000, 10000000000, 10000000000, 10000000000,
    10000000000, 10000000000, 10000000000, 10000000000, 10000000000, 10000000000, 10000000000,
    10000000000, 10000000000, 10000000000, 10000000000, 10000000000, 10000000000, 10000000000,
    10000000000, 10000000000, 10000000000, 10000000000, 10000000000, 10000000000, 10000000000,
    10000000000, 10000000000, 10000000000, 10000000000, 10000000000, 10000000000, 10000000000,
    10000000000, 10000000000, 10000000000, 10000000000, 10000000000, 10000000000, 10000000000,
    10000000000]),
  (18571400000, [
    0, 0, 769231, 10000000, 62307700, 194615000, 405385000, 802308000, 1233850000, 1882310000,
    2613850000, 3333850000, 4030000000, 4983080000, 6004620000, 6727690000, 7489230000,
    8120000000, 8579230000, 8930770000, 9220770000, 9452310000, 9588460000, 9717690000,
    9824620000, 9913850000, 9960770000, 9985380000, 10000000000, 10000000000, 10000000000,
    10000000000, 10000000000, 10000000000, 10000000000, 10000000000, 10000000000, 10000000000,
    10000000000, 10000000000, 10000000000, 10000000000, 10000000000, 10000000000, 10000000000,
    10000000000, 10000000000, 10000000000, 10000000000, 10000000000, 10000000000, 10000000000,
    10000000000, 10000000000, 10000000000, 10000000000, 10000000000, 10000000000, 10000000000,
    10000000000, 10000000000, 10000000000, 10000000000, 10000000000, 10000000000, 10000000000,
    10000000000, 10000000000, 10000000000, 10000000000, 10000000000, 10000000000, 10000000000,
    10000000000, 10000000000, 10000000000, 10000000000, 10000000000, 10000000000, 10000000000,
    10000000000]),
  (20769200000, [
    0, 0, 0, 4437870, 46597600, 149408000, 297337000, 627959000, 891272000, 1405330000,
    2007400000, 2602810000, 3197490000, 3807690000, 4598370000, 5342460000, 6274410000,
    7035500000, 7654590000, 8170860000, 8599850000, 8948220000, 9262570000, 9463020000,
    9590980000, 9736690000, 9814350000, 9869080000, 9929730000, 9972630000, 9988910000,
    10000000000, 10000000000, 10000000000, 10000000000, 10000000000, 10000000000, 10000000000,
    10000000000, 10000000000, 10000000000, 10000000000, 10000000000, 10000000000, 10000000000,
    10000000000, 10000000000, 10000000000, 10000000000, 10000000000, 10000000000, 10000000000,
    10000000000, 10000000000, 10000000000, 10000000000, 10000000000, 10000000000, 10000000000,
    10000000000, 10000000000, 10000000000, 10000000000, 10000000000, 10000000000, 10000000000,
    10000000000, 10000000000, 10000000000, 10000000000, 10000000000, 10000000000, 10000000000,
    10000000000, 10000000000, 10000000000, 10000000000, 10000000000, 10000000000, 10000000000,
    10000000000]),
  (23333300000, [
    0, 0, 0, 2853070, 33523500, 105563000, 204708000, 485021000, 686163000, 1062770000,
    1524250000, 1939370000, 2365190000, 2867330000, 3546360000, 4167620000, 5011410000,
    5826680000, 6497860000, 7158350000, 7657630000, 8138370000, 8520680000, 8834520000,
    9096290000, 9301000000, 9455060000, 9578460000, 9686880000, 9763910000, 9815260000,
    9854490000, 9885880000, 9913690000, 9937950000, 9945790000, 9953640000, 9962910000,
    9969330000, 9977890000, 9983590000, 9985730000, 9986450000, 9987160000, 9988590000,
    9989300000, 9991440000, 9995720000, 10000000000, 10000000000, 10000000000, 10000000000,
    10000000000, 10000000000, 10000000000, 10000000000, 10000000000, 10000000000, 10000000000,
    10000000000, 10000000000, 10000000000, 10000000000, 10000000000, 10000000000, 10000000000,
    10000000000, 10000000000, 10000000000, 10000000000, 10000000000, 10000000000, 10000000000,
    10000000000, 10000000000, 10000000000, 10000000000, 10000000000, 10000000000, 10000000000,
    10000000000]),
  (26363600000, [
    0, 0, 0, 1377410, 17217600, 68181800, 130854000, 339532000, 494490000, 794077000, 1190080000,
    1509640000, 1768600000, 2175620000, 2741740000, 3230720000, 3814050000, 4548900000,
    5160470000, 5796140000, 6396690000, 6875340000, 7410470000, 7878790000, 8284440000,
    8646690000, 8884990000, 9129480000, 9299590000, 9513770000, 9618460000, 9710060000,
    9788570000, 9827130000, 9856750000, 9898070000, 9922180000, 9937330000, 9954550000,
    9969700000, 9974520000, 9980030000, 9985540000, 9988980000, 9991050000, 9993110000,
    10000000000, 10000000000, 10000000000, 10000000000, 10000000000, 10000000000, 10000000000,
    10000000000, 10000000000, 10000000000, 10000000000, 10000000000, 10000000000, 10000000000,
    10000000000, 10000000000, 10000000000, 10000000000, 10000000000, 10000000000, 10000000000,
    10000000000, 10000000000, 10000000000, 10000000000, 10000000000, 10000000000, 10000000000,
    10000000000, 10000000000, 10000000000, 10000000000, 10000000000, 10000000000, 10000000000]),
  (30000000000, [
    0, 0, 0, 0, 8666670, 44666700, 86666700, 226667000, 352667000, 569333000, 868667000,
    1094000000, 1278000000, 1566000000, 1997330000, 2360670000, 2916000000, 3552670000,
    4014000000, 4637330000, 5082670000, 5480670000, 5983330000, 6609330000, 7148000000,
    7535330000, 7917330000, 8260000000, 8558670000, 8928670000, 9095330000, 9258670000,
    9371330000, 9492670000, 9602000000, 9702000000, 9762000000, 9802670000, 9842670000,
    9870000000, 9892000000, 9908000000, 9922000000, 9930000000, 9935330000, 9947330000,
    9951330000, 9958670000, 9965330000, 9973330000, 9980000000, 9987330000, 9990670000,
    9996000000, 10000000000, 10000000000, 10000000000, 10000000000, 10000000000, 10000000000,
    10000000000, 10000000000, 10000000000, 10000000000, 10000000000, 10000000000, 10000000000,
    10000000000, 10000000000, 10000000000, 10000000000, 10000000000, 10000000000, 10000000000,
    10000000000, 10000000000, 10000000000, 10000000000, 10000000000, 10000000000, 10000000000]),
  (34444400000, [
    0, 0, 0, 0, 4510310, 29639200, 51546400, 153995000, 246778000, 403351000, 682990000,
    833119000, 959407000, 1151420000, 1446520000, 1666240000, 2043170000, 2559280000, 2926550000,
    3432350000, 3853090000, 4282220000, 4677190000, 5159150000, 5565720000, 5980670000,
    6356310000, 6771260000, 7132090000, 7782860000, 8070880000, 8330540000, 8542530000,
    8667530000, 8820880000, 8972940000, 9114690000, 9201680000, 9301550000, 9390460000,
    9466490000, 9546390000, 9594720000, 9650130000, 9704900000, 9748710000, 9795100000,
    9815080000, 9847290000, 9864690000, 9880800000, 9894330000, 9903990000, 9920100000,
    9932350000, 9940080000, 9944590000, 9947160000, 9949100000, 9951680000, 9954250000,
    9956830000, 9958760000, 9960700000, 9961980000, 9964560000, 9967780000, 9971650000,
    9976800000, 9980670000, 9980670000, 9981310000, 9981960000, 9981960000, 9982600000,
    9982600000, 9983250000, 9983890000, 9983890000, 9984540000, 9984540000]),
  (40000000000, [
    0, 0, 0, 0, 1872660, 13108600, 29962500, 98626700, 169788000, 291511000, 513109000, 609238000,
    687890000, 822722000, 1044940000, 1170410000, 1435080000, 1858300000, 2101750000, 2463800000,
    2725340000, 3078650000, 3409490000, 3867670000, 4274030000, 4689140000, 5048690000,
    5438830000, 5805240000, 6593630000, 6838950000, 7065540000, 7305240000, 7506240000,
    7733460000, 7919480000, 8106740000, 8287140000, 8469410000, 8610490000, 8761550000,
    8850810000, 8948810000, 9034330000, 9107370000, 9179780000, 9250310000, 9317730000,
    9368290000, 9404490000, 9455680000, 9500620000, 9541820000, 9576780000, 9605490000,
    9634830000, 9656680000, 9674780000, 9695380000, 9721600000, 9745940000, 9761550000,
    9774660000, 9792760000, 9817100000, 9833330000, 9845190000, 9854560000, 9866420000,
    9871410000, 9881400000, 9887020000, 9892630000, 9898880000, 9905120000, 9908860000,
    9915730000, 9921350000, 9923220000, 9926970000, 9928210000]),
  (47142900000, [
    0, 0, 0, 0, 1210650, 12106500, 18159800, 56900700, 109564000, 189467000, 394068000, 469128000,
    521186000, 585956000, 746973000, 848063000, 1033900000, 1361990000, 1545400000, 1838380000,
    2017550000, 2182200000, 2392250000, 2731230000, 2997580000, 3294190000, 3478810000,
    3849880000, 4204000000, 5104720000, 5331720000, 5588380000, 5843830000, 6053870000,
    6289350000, 6495160000, 6730630000, 6923120000, 7133780000, 7307510000, 7475790000,
    7642250000, 7781480000, 7889230000, 8006660000, 8099270000, 8194920000, 8300850000,
    8405570000, 8517550000, 8620460000, 8694920000, 8771190000, 8837170000, 8909200000,
    8969130000, 9022400000, 9062350000, 9115620000, 9165860000, 9194310000, 9234870000,
    9258470000, 9277850000, 9296000000, 9320220000, 9340190000, 9368040000, 9395280000,
    9418890000, 9431600000, 9447940000, 9461260000, 9475180000, 9489710000, 9503630000,
    9516950000, 9527850000, 9535110000, 9544790000, 9551450000]),
  (56666700000, [
    0, 0, 0, 0, 0, 2937720, 7050530, 44065800, 82843700, 141011000, 276146000, 321387000,
    341363000, 393067000, 493537000, 552291000, 679788000, 932432000, 1051120000, 1273210000,
    1387190000, 1487070000, 1632200000, 1894830000, 2099290000, 2311990000, 2460050000,
    2746180000, 2998240000, 3985310000, 4135140000, 4298470000, 4505290000, 4672150000,
    4847240000, 5002350000, 5211520000, 5363100000, 5522330000, 5688600000, 5860160000,
    6012930000, 6155110000, 6289660000, 6425380000, 6549350000, 6665100000, 6782020000,
    6915390000, 7028790000, 7132780000, 7243830000, 7344300000, 7435960000, 7510580000,
    7594590000, 7679200000, 7741480000, 7809050000, 7883670000, 7951230000, 8006460000,
    8061690000, 8106350000, 8155700000, 8210930000, 8263810000, 8317860000, 8364860000,
    8406580000, 8447120000, 8481790000, 8513510000, 8551700000, 8586960000, 8634550000,
    8667450000, 8685660000, 8712690000, 8733840000, 8754990000]),
  (70000000000, [
    0, 0, 0, 0, 0, 571429, 571429, 18857100, 39428600, 72000000, 179429000, 204571000, 213143000,
    235429000, 298857000, 346857000, 426286000, 625714000, 689143000, 861143000, 928000000,
    1006290000, 1089140000, 1287430000, 1422860000, 1587430000, 1680000000, 1885140000,
    2074860000, 3052000000, 3137140000, 3244570000, 3365710000, 3470860000, 3577710000,
    3714860000, 3845710000, 3941710000, 4067430000, 4214290000, 4394860000, 4521140000,
    4632000000, 4743430000, 4855430000, 4948570000, 5044570000, 5122290000, 5222860000,
    5325710000, 5441710000, 5542860000, 5626860000, 5729140000, 5810290000, 5889710000,
    5974290000, 6069710000, 6165140000, 6246860000, 6340000000, 6427430000, 6528000000,
    6598860000, 6654290000, 6713140000, 6775430000, 6830860000, 6891430000, 6936570000,
    6970290000, 7012000000, 7062860000, 7100570000, 7144000000, 7208570000, 7248570000,
    7284000000, 7313710000, 7340570000, 7365710000]),
  (90000000000, [
    0, 0, 0, 0, 0, 1109880, 1109880, 6104330, 19977800, 38290800, 113762000, 128191000, 131521000,
    142619000, 175361000, 191454000, 237514000, 376804000, 416204000, 518868000, 558824000,
    594340000, 635405000, 773030000, 843507000, 951165000, 987791000, 1137070000, 1269150000,
    2221980000, 2274690000, 2330740000, 2415650000, 2469480000, 2529970000, 2594890000,
    2693120000, 2747500000, 2807990000, 2870140000, 2967260000, 3034410000, 3110990000,
    3183130000, 3269150000, 3320750000, 3381800000, 3441180000, 3500000000, 3561040000,
    3644280000, 3714210000, 3786900000, 3859050000, 3915090000, 3980020000, 4046060000,
    4100440000, 4176470000, 4239730000, 4303000000, 4373470000, 4460600000, 4507770000,
    4551050000, 4601550000, 4648170000, 4710320000, 4746390000, 4785790000, 4828520000,
    4855160000, 4882350000, 4910650000, 4950060000, 5021640000, 5057160000, 5082130000,
    5104880000, 5123200000, 5137620000]),
  (123333000000, [
    0, 0, 0, 0, 0, 0, 0, 1079910, 5399570, 9719220, 49136100, 57235400, 58315300, 65334800,
    79373700, 88552900, 108531000, 196004000, 210583000, 284557000, 295896000, 308855000,
    323434000, 399028000, 455724000, 517279000, 533477000, 624190000, 704644000, 1585310000,
    1605290000, 1626350000, 1683590000, 1701940000, 1727860000, 1751080000, 1813710000,
    1832610000, 1855830000, 1889850000, 1958420000, 1986500000, 2014580000, 2046440000,
    2093410000, 2118250000, 2142550000, 2164690000, 2198700000, 2221380000, 2280240000,
    2313710000, 2360150000, 2386070000, 2410370000, 2434130000, 2456800000, 2481640000,
    2530780000, 2556700000, 2585310000, 2618250000, 2687370000, 2713280000, 2737040000,
    2766200000, 2798600000, 2850970000, 2871490000, 2889310000, 2912530000, 2931970000,
    2952480000, 2975160000, 3000540000, 3059940000, 3082610000, 3090710000, 3100430000,
    3112310000, 3122570000]),
  (190000000000, [
    0, 0, 0, 0, 0, 0, 0, 525762, 1577290, 4206100, 19979000, 21030500, 21556300, 21556300,
    26288100, 28391200, 34174600, 69926400, 76235500, 111462000, 118297000, 125657000, 132492000,
    176656000, 200841000, 232913000, 235542000, 274448000, 305468000, 1016300000, 1019450000,
    1024710000, 1050470000, 1054680000, 1062570000, 1069930000, 1106200000, 1115140000,
    1124610000, 1135120000, 1165090000, 1181910000, 1191900000, 1202940000, 1224500000,
    1232910000, 1237120000, 1243950000, 1256050000, 1264460000, 1304940000, 1315980000,
    1345950000, 1359620000, 1369090000, 1379070000, 1388010000, 1395900000, 1414300000,
    1421140000, 1435330000, 1449530000, 1492110000, 1499470000, 1506830000, 1519450000,
    1533120000, 1563090000, 1568350000, 1575180000, 1578860000, 1580440000, 1584120000,
    1590960000, 1603050000, 1650890000, 1661930000, 1663510000, 1665090000, 1668770000, 1674030000]),
  (390000000000, [
    0, 0, 0, 0, 0, 0, 0, 0, 0, 0, 4610660, 5122950, 5122950, 5122950, 5635250, 6147540, 6659840,
    12807400, 13319700, 17418000, 17930300, 18442600, 18442600, 27663900, 33811500, 41495900,
    42008200, 51229500, 58401600, 489754000, 490266000, 490779000, 497951000, 498463000,
    498463000, 498975000, 503586000, 503586000, 504611000, 506148000, 515369000, 518955000,
    519467000, 521004000, 527152000, 527152000, 527664000, 528176000, 529201000, 529201000,
    537398000, 538934000, 548156000, 549693000, 550717000, 550717000, 551230000, 552254000,
    556352000, 556352000, 558402000, 558402000, 571209000, 571721000, 571721000, 572746000,
    573770000, 586578000, 587090000, 588627000, 589139000, 590164000, 590676000, 591189000,
    591701000, 610143000, 613730000, 613730000, 613730000, 614242000, 615779000])]

/-- The shipped melt table. -/
noncomputable def shippedMelt : MeltTable ℝ :=
  { temps := meltTemps.map (fun t : Nat => (t : ℝ)),
    rows := meltFile.map (fun r => ((r.1 : ℝ) / 10 ^ 10, r.2.map (fun v : Nat => (v : ℝ) / 10 ^ 10))) }

/-- The shipped files.  The volcanic species file is left open: mode `NK` always fails
(`C46_refuted`). -/
noncomputable def shippedData (nk : List (ℝ × ℝ)) (sortAges : CraterTable → CraterTable)
    (sortNk : List (ℝ × ℝ) → List (ℝ × ℝ)) (setOrder : List (List Char) → List (List Char)) :
    RunData :=
  { craters := craterFile.map FileRow.read, basins := basinFile.map FileRow.read,
    hop := hopFile.map (fun p : String × ℚ => (p.1, (p.2 : ℝ))),
    lum := lumFile.map (fun p : ℚ × ℚ => ((p.1 : ℝ), (p.2 : ℝ))), nk := nk, melt := shippedMelt,
    sortAges := sortAges, sortNk := sortNk, setOrder := setOrder }

end MoonPIES
