import Verif.Model.KeContours
import Verif.Props.KeNotebook
import Verif.Props.Geo
import Verif.Props.Grid
import Verif.Lemmas.RngArg

/-!
# C125: kinetic energy of all ejecta on a grid
-/

namespace MoonPIES

open Real InnerProductGeometry

/-- Spec: the direction of a point of the polar map, on the southern half of a sphere of radius
1737.4 km seen from below. -/
noncomputable def Spec.southPoint (x y : ℝ) : EuclideanSpace ℝ (Fin 3) :=
  !₂[y / 1737400, x / 1737400, -sqrt (1 - (x ^ 2 + y ^ 2) / 1737400 ^ 2)]

/-- Spec: the energy per area [J/m²] of the ejecta of a crater of radius `R` at distance `d`: nothing inside the
crater, else half of 1500 kg/m³ times the thickness times the square of the speed of flight over a sphere at 45
degrees. -/
noncomputable def Spec.blanketEnergy (d R : ℝ) : ℝ :=
  open Classical in
  if d < R then 0 else 1 / 2 * (1500 * (0.14 * R ^ (0.74 : ℝ) * (R / d) ^ 3)) *
    (2 * 1.624 * 1737400 * tan (d / 3474800) / (1 + tan (d / 3474800)))

/-- Spec: the energy per area of the ejecta of all craters at a point of the map. -/
noncomputable def Spec.energySum (craters : List KcCrater) (x y : ℝ) : ℝ :=
  (craters.map fun c =>
    Spec.blanketEnergy (1737400 * angle (direction c.lat c.lon) (Spec.southPoint x y)) c.rad).sum

/-- Spec: columns and rows of the map. -/
def Spec.mapX (j : Nat) : ℝ := -400000 + 1000 * j
def Spec.mapY (i : Nat) : ℝ := 400000 - 1000 * i

open Spec

theorem kcR_eq : kcR = 1737400 := by unfold kcR; norm_num

theorem kcAxes_eq : kcAxes = .ok ((List.range 800).map mapY, (List.range 800).map mapX) := by
  unfold kcAxes
  have e1 : ((-400e3 : ℝ) - 400e3) / -1e3 = ((800 : ℕ) : ℝ) := by norm_num
  have e2 : ((400e3 : ℝ) - -400e3) / 1e3 = ((800 : ℕ) : ℝ) := by norm_num
  have a1 : npArange (400e3 : ℝ) (-400e3) (-1e3) = .ok ((List.range 800).map mapY) := by
    rw [npArange_axis _ _ _ (by norm_num), e1, Int.ceil_natCast, Int.toNat_natCast]
    refine congrArg Except.ok (List.map_congr_left fun i _ => ?_)
    unfold mapY
    norm_num
    ring
  have a2 : npArange (-400e3 : ℝ) 400e3 1e3 = .ok ((List.range 800).map mapX) := by
    rw [npArange_axis _ _ _ (by norm_num), e2, Int.ceil_natCast, Int.toNat_natCast]
    refine congrArg Except.ok (List.map_congr_left fun i _ => ?_)
    unfold mapX
    norm_num
    ring
  rw [a1, a2]
  rfl

theorem map_range {i : Nat} (h : i < 800) : |mapX i| ≤ 400000 ∧ |mapY i| ≤ 400000 := by
  have h0 : (0 : ℝ) ≤ i := Nat.cast_nonneg i
  have h1 : (i : ℝ) ≤ 799 := by exact_mod_cast (by omega : i ≤ 799)
  unfold mapX mapY
  constructor <;> rw [abs_le] <;> constructor <;> linarith

theorem south_lat (x y : ℝ) (hx : |x| ≤ 400000) (hy : |y| ≤ 400000) :
    ∃ lat, (xy2latlon x y kcR).1 = some lat ∧ -90 ≤ lat ∧ lat ≤ 0 ∧
      latlon2xy lat (xy2latlon x y kcR).2 kcR = (x, y) ∧
      direction lat (xy2latlon x y kcR).2 = southPoint x y := by
  have hx2 : x ^ 2 ≤ 400000 ^ 2 := by rw [← sq_abs x]; exact pow_le_pow_left₀ (abs_nonneg x) hx 2
  have hy2 : y ^ 2 ≤ 400000 ^ 2 := by rw [← sq_abs y]; exact pow_le_pow_left₀ (abs_nonneg y) hy 2
  obtain ⟨lat, h1, h2⟩ := C35_xy_round_trip x y kcR (by rw [kcR_eq]; norm_num)
    (by rw [kcR_eq]; norm_num at hx2 hy2 ⊢; linarith)
  have hlat : lat = rad2deg (-arcsin (sqrt (kcR ^ 2 - x ^ 2 - y ^ 2) / kcR)) := by
    unfold xy2latlon at h1
    rw [npSqrt, if_neg (by rw [kcR_eq]; norm_num at hx2 hy2 ⊢; linarith)] at h1
    injection h1 with h1
    exact h1.symm
  have hz : sqrt (kcR ^ 2 - x ^ 2 - y ^ 2) / kcR = sqrt (1 - (x ^ 2 + y ^ 2) / 1737400 ^ 2) := by
    rw [kcR_eq, div_eq_iff (by norm_num), show (1737400 : ℝ) = sqrt (1737400 ^ 2) from
      (sqrt_sq (by norm_num)).symm, ← sqrt_mul (by
        norm_num at hx2 hy2 ⊢
        linarith)]
    congr 1
    rw [sqrt_sq (by norm_num)]
    field_simp
    ring
  rw [hz] at hlat
  have hs0 := sqrt_nonneg (1 - (x ^ 2 + y ^ 2) / 1737400 ^ 2)
  have hs1 : sqrt (1 - (x ^ 2 + y ^ 2) / 1737400 ^ 2) ≤ 1 := by
    rw [sqrt_le_one]
    have : 0 ≤ (x ^ 2 + y ^ 2) / 1737400 ^ 2 := by positivity
    linarith
  have hp := pi_pos
  have ha := arcsin_nonneg.2 hs0
  have ha2 := arcsin_le_pi_div_two (sqrt (1 - (x ^ 2 + y ^ 2) / 1737400 ^ 2))
  refine ⟨lat, h1, ?_, ?_, h2, ?_⟩
  · rw [hlat, rad2deg, neg_mul, ← mul_div_assoc, neg_le_neg_iff, div_le_iff₀ hp]
    linarith
  · rw [hlat, rad2deg, neg_mul]
    have : 0 ≤ arcsin (sqrt (1 - (x ^ 2 + y ^ 2) / 1737400 ^ 2)) * (180 / π) := by positivity
    linarith
  · have e : ∀ t : ℝ, t * π / 180 = deg2rad t := fun t => by unfold deg2rad; ring
    have hsin : sin (deg2rad lat) = -sqrt (1 - (x ^ 2 + y ^ 2) / 1737400 ^ 2) := by
      rw [hlat, rad_deg, sin_neg, sin_arcsin (by linarith) hs1]
    generalize (xy2latlon x y kcR).2 = lon at h2 ⊢
    unfold latlon2xy at h2
    rw [kcR_eq] at h2
    simp only [Prod.mk.injEq] at h2
    unfold direction southPoint
    simp only [e]
    have a1 : cos (deg2rad lat) * cos (deg2rad lon) = y / 1737400 := by
      rw [eq_div_iff (by norm_num), ← h2.2]; ring
    have a2 : cos (deg2rad lat) * sin (deg2rad lon) = x / 1737400 := by
      rw [eq_div_iff (by norm_num), ← h2.1]; ring
    rw [hsin, a1, a2]

theorem kcEnergy_eq (d R : ℝ) (hR : 0 < R) (hd1 : d < π * 1737400) :
    kcEnergy d R = .fin (blanketEnergy d R) := by
  unfold kcEnergy blanketEnergy
  by_cases h : d < R
  · rw [if_pos h, if_pos h]
  · rw [if_neg h, if_neg h]
    have hd : 0 < d := by linarith
    have hp := pi_pos
    have hv := spherical_fin nbTheta d nbG kcR (by rw [nb_theta]; linarith) (by rw [nb_theta]; linarith)
      (by unfold nbG; norm_num) (by rw [kcR_eq]; norm_num) hd (by rw [kcR_eq]; exact hd1)
    obtain ⟨p0, p1⟩ := phi_range d 1737400 (by norm_num) hd.le hd1
    rw [show (2 : ℝ) * 1737400 = 3474800 by norm_num] at p0 p1
    have ht : 0 ≤ tan (d / 3474800) := tan_nonneg_of_nonneg_of_le_pi_div_two p0 p1.le
    have h2 : √2 / 2 * (√2 / 2) = 1 / 2 := by
      rw [div_mul_div_comm, mul_self_sqrt (by norm_num)]; norm_num
    rw [nb_theta, sin_pi_div_four, cos_pi_div_four, pow_two (√2 / 2), h2, kcR_eq,
      show (2 : ℝ) * 1737400 = 3474800 by norm_num] at hv
    rw [nb_theta, kcR_eq, hv]
    have hth : nbThickness d R = .fin (0.14 * R ^ (0.74 : ℝ) * (R / d) ^ 3) := by
      unfold nbThickness npPow
      rw [if_neg hR.ne', if_neg (not_lt.2 (by positivity)), if_neg (fun h => (div_pos hd hR).ne' h.1)]
      simp only [Flt.smul]
      rw [rpow_neg (by positivity), show (3 : ℝ) = ((3 : ℕ) : ℝ) by norm_num, rpow_natCast, ← inv_pow, inv_div]
    rw [hth]
    simp only [thick2mass, mps2KE, Flt.smul, Flt.mul]
    rw [mul_self_sqrt (by unfold nbG; positivity)]
    congr 1
    unfold nbG
    have : (1 : ℝ) + tan (d / 3474800) ≠ 0 := by positivity
    have : (1 : ℝ) / 2 + 1 / 2 * tan (d / 3474800) ≠ 0 := by positivity
    field_simp
    norm_num
    ring

theorem south_angle (lat lon x y : ℝ) (hlat : -90 ≤ lat) (hlat' : lat ≤ 0) (hx : |x| ≤ 400000)
    (hy : |y| ≤ 400000) : 1737400 * angle (direction lat lon) (southPoint x y) < π * 1737400 := by
  obtain ⟨lat', -, -, -, -, h⟩ := south_lat x y hx hy
  have hlt : angle (direction lat lon) (southPoint x y) < π := by
    refine lt_of_le_of_ne (angle_le_pi _ _) fun he => ?_
    rw [angle_eq_pi_iff] at he
    obtain ⟨-, r, hr, he⟩ := he
    have h3 := congrFun (congrArg (fun v : EuclideanSpace ℝ (Fin 3) => v.ofLp) he) 2
    simp only [southPoint, direction] at h3
    simp at h3
    have hp := pi_pos
    have hs : sin (lat * π / 180) ≤ 0 := sin_nonpos_of_nonpos_of_neg_pi_le (by nlinarith) (by nlinarith)
    have hx2 : x ^ 2 ≤ 400000 ^ 2 := by rw [← sq_abs x]; exact pow_le_pow_left₀ (abs_nonneg x) hx 2
    have hy2 : y ^ 2 ≤ 400000 ^ 2 := by rw [← sq_abs y]; exact pow_le_pow_left₀ (abs_nonneg y) hy 2
    have hz : 0 < sqrt (1 - (x ^ 2 + y ^ 2) / 1737400 ^ 2) := sqrt_pos.2 (by
      rw [sub_pos, div_lt_one (by norm_num)]
      norm_num at hx2 hy2 ⊢
      linarith)
    nlinarith [mul_nonneg_of_nonpos_of_nonpos hr.le hs]
  linarith

theorem fltSum_fin {α : Type} (l : List α) (f : α → Flt) (e : α → ℝ) (h : ∀ c ∈ l, f c = .fin (e c)) :
    fltSum (l.map f) = .fin (l.map e).sum := by
  have key : ∀ (l : List α) (a : ℝ), (∀ c ∈ l, f c = .fin (e c)) →
      (l.map f).foldl Flt.add (.fin a) = .fin (a + (l.map e).sum) := by
    intro l
    induction l with
    | nil => intro a _; simp
    | cons c l ih =>
      intro a h
      rw [List.map_cons, List.foldl_cons, h c (by simp)]
      change (l.map f).foldl Flt.add (.fin (a + e c)) = _
      rw [ih _ (fun c hc => h c (by simp [hc]))]
      simp [add_assoc]
  unfold fltSum
  rw [key l 0 h, zero_add]

theorem kcGrid_eq (craters : List KcCrater) :
    ∃ g, kcGrid craters = .ok g ∧ g.rows = 800 ∧ g.cols = 800 ∧ ∀ i j, i < 800 → j < 800 →
      g.entry i j = fltSum (craters.map (kcEnergyAt (xy2latlon (mapX j) (mapY i) kcR))) := by
  unfold kcGrid
  rw [kcAxes_eq]
  simp only [bind, Except.bind]
  have hm : ∀ (c : KcCrater), npAssign ((List.range 800).map mapX).length ((List.range 800).map mapY).length
      ⟨(gridLatLon ((List.range 800).map mapY) ((List.range 800).map mapX) kcR).rows,
        (gridLatLon ((List.range 800).map mapY) ((List.range 800).map mapX) kcR).cols,
        fun i j => kcEnergyAt ((gridLatLon ((List.range 800).map mapY) ((List.range 800).map mapX)
          kcR).entry i j) c⟩ = .ok ⟨800, 800, fun i j => kcEnergyAt
            ((gridLatLon ((List.range 800).map mapY) ((List.range 800).map mapX) kcR).entry i j) c⟩ := by
    intro c
    unfold npAssign gridLatLon
    simp only [List.length_map, List.length_range]
    rw [if_pos ⟨Or.inl trivial, Or.inl trivial⟩]
    rfl
  have hmm : ∀ l : List KcCrater, (l.mapM fun c => npAssign ((List.range 800).map mapX).length
      ((List.range 800).map mapY).length
      ⟨(gridLatLon ((List.range 800).map mapY) ((List.range 800).map mapX) kcR).rows,
        (gridLatLon ((List.range 800).map mapY) ((List.range 800).map mapX) kcR).cols,
        fun i j => kcEnergyAt ((gridLatLon ((List.range 800).map mapY) ((List.range 800).map mapX)
          kcR).entry i j) c⟩) = .ok (l.map fun c => ⟨800, 800, fun i j => kcEnergyAt
            ((gridLatLon ((List.range 800).map mapY) ((List.range 800).map mapX) kcR).entry i j) c⟩) := by
    intro l
    induction l with
    | nil => rfl
    | cons c l ih => rw [List.mapM_cons, hm, ih]; rfl
  rw [hmm]
  refine ⟨_, rfl, by simp, by simp, ?_⟩
  intro i j hi hj
  simp only [List.map_map, Function.comp_def, gridLatLon]
  have e1 : ((List.range 800).map mapX).getD j 0 = mapX j := by
    rw [List.getD_eq_getElem?_getD, List.getElem?_map, List.getElem?_range hj]; rfl
  have e2 : ((List.range 800).map mapY).getD i 0 = mapY i := by
    rw [List.getD_eq_getElem?_getD, List.getElem?_map, List.getElem?_range hi]; rfl
  rw [e1, e2]

/-- Craters that the script may be given: in the south, with positive radii. -/
def Spec.Southern (craters : List KcCrater) : Prop :=
  ∀ c ∈ craters, 0 < c.rad ∧ -90 ≤ c.lat ∧ c.lat ≤ 0

theorem point_energy (craters : List KcCrater) (hc : Southern craters) (x y : ℝ) (hx : |x| ≤ 400000)
    (hy : |y| ≤ 400000) :
    fltSum (craters.map (kcEnergyAt (xy2latlon x y kcR))) = .fin (energySum craters x y) := by
  obtain ⟨lat, h1, -, -, -, h5⟩ := south_lat x y hx hy
  apply fltSum_fin
  intro c h
  obtain ⟨r, l1, l2⟩ := hc c h
  unfold kcEnergyAt
  rw [h1]
  simp only []
  rw [C34_gc_dist_eq_angle, h5]
  simp only []
  rw [kcR_eq]
  exact kcEnergy_eq _ _ r (south_angle c.lat c.lon x y l1 l2 hx hy)

/-- **C125** for any southern craters, the map of 800 by 800 points is computed without an error, and row `i` and
column `j` hold the energy at `y = 400 - i` km, `x = j - 400` km. -/
theorem C125_grid (craters : List KcCrater) (hc : Southern craters) :
    ∃ g, kcGrid craters = .ok g ∧ g.rows = 800 ∧ g.cols = 800 ∧ ∀ i j, i < 800 → j < 800 →
      g.entry i j = .fin (energySum craters (mapX j) (mapY i)) ∧
      (kcTnt g).entry i j = .fin (energySum craters (mapX j) (mapY i) * 1000 ^ 2 / 4.184e9) := by
  obtain ⟨g, h, hr, hcl, he⟩ := kcGrid_eq craters
  refine ⟨g, h, hr, hcl, fun i j hi hj => ?_⟩
  have := (he i j hi hj).trans (point_energy craters hc _ _ (map_range hj).1 (map_range hi).2)
  refine ⟨this, ?_⟩
  simp only [kcTnt, this, Flt.smul]
  congr 1
  norm_num
  ring

theorem blanket_nonneg (d R : ℝ) (hR : 0 < R) (hd1 : d < π * 1737400) : 0 ≤ blanketEnergy d R ∧
    (R ≤ d → 0 < blanketEnergy d R) ∧ (d < R → blanketEnergy d R = 0) := by
  unfold blanketEnergy
  by_cases h : d < R
  · rw [if_pos h]
    exact ⟨le_rfl, fun h' => absurd h (not_lt.2 h'), fun _ => rfl⟩
  · rw [if_neg h]
    have hd : 0 < d := by linarith
    have hp := pi_pos
    have ht : 0 < tan (d / 3474800) := tan_pos_of_pos_of_lt_pi_div_two (by positivity) (by
      rw [div_lt_iff₀ (by norm_num)]; linarith)
    have : 0 < 1 / 2 * (1500 * (0.14 * R ^ (0.74 : ℝ) * (R / d) ^ 3)) *
      (2 * 1.624 * 1737400 * tan (d / 3474800) / (1 + tan (d / 3474800))) := by positivity
    exact ⟨this.le, fun _ => this, fun h' => absurd h' h⟩

/-- The line of one point. -/
theorem tnt_get (craters : List KcCrater) (hc : Southern craters) :
    ∃ g, kcGrid craters = .ok g ∧ ∀ i j, i < 800 → j < 800 → (kcTnt g).get i j =
      .ok (.fin (energySum craters (mapX j) (mapY i) * 1000 ^ 2 / 4.184e9)) := by
  obtain ⟨g, h, hr, hcl, he⟩ := C125_grid craters hc
  refine ⟨g, h, fun i j hi hj => ?_⟩
  unfold Arr2.get
  rw [if_pos ⟨by simp only [kcTnt, hr]; exact hi, by simp only [kcTnt, hcl]; exact hj⟩, (he i j hi hj).2]

theorem flatten_even {α : Type} (n : Nat) (L : List (List α)) (h : ∀ r ∈ L, r.length = n) (i j : Nat)
    (hj : j < n) : L.flatten[n * i + j]? = L[i]?.bind (·[j]?) := by
  induction L generalizing i with
  | nil => rfl
  | cons r L ih =>
    have hr := h r (by simp)
    rw [List.flatten_cons]
    cases i with
    | zero =>
      rw [Nat.mul_zero, Nat.zero_add, List.getElem?_append_left (by omega)]
      rfl
    | succ i =>
      rw [List.getElem?_append_right (by rw [hr, Nat.mul_succ]; omega), hr,
        show n * (i + 1) + j - n = n * i + j by rw [Nat.mul_succ]; omega,
        ih (fun r hr => h r (by simp [hr]))]
      rfl

theorem flatten_get {α : Type} (n : Nat) (f : Nat → Nat → α) (i j : Nat) (hi : i < n) (hj : j < n) :
    (((List.range n).map fun i => (List.range n).map (f i)).flatten)[n * i + j]? = some (f i j) := by
  rw [flatten_even n _ (by
    intro r hr
    obtain ⟨k, -, rfl⟩ := List.mem_map.1 hr
    simp) i j hj, List.getElem?_map, List.getElem?_range hi]
  simp only [Option.map_some, Option.bind_some]
  rw [List.getElem?_map, List.getElem?_range hj]
  rfl

theorem flatten_len {α : Type} (n : Nat) (f : Nat → Nat → α) :
    (((List.range n).map fun i => (List.range n).map (f i)).flatten).length = n * n := by
  rw [List.length_flatten, List.map_map]
  simp [Function.comp_def]

/-- **C125** the file of longitudes and latitudes: 640000 lines, one for each point of the map; each has the
coordinates of its point and the energy there, in tons of TNT per square kilometre. -/
theorem C125_lonlat (craters : List KcCrater) (hc : Southern craters) :
    ∃ lines, kcExportLonLat craters = .ok lines ∧ lines.length = 640000 ∧
      ∀ i j, i < 800 → j < 800 → ∃ lon lat, lines[800 * i + j]? = some (lon, some lat,
        .fin (energySum craters (mapX j) (mapY i) * 1000 ^ 2 / 4.184e9)) ∧
        direction lat lon = southPoint (mapX j) (mapY i) := by
  obtain ⟨g, hg, hget⟩ := tnt_get craters hc
  unfold kcExportLonLat
  rw [kcAxes_eq]
  simp only [bind, Except.bind]
  rw [hg]
  simp only []
  have hll : ∀ i j, i < 800 → j < 800 → (gridLatLon ((List.range 800).map mapY) ((List.range 800).map mapX)
      kcR).get i j = .ok (xy2latlon (mapX j) (mapY i) kcR) := by
    intro i j hi hj
    unfold Arr2.get gridLatLon
    simp only [List.length_map, List.length_range]
    rw [if_pos ⟨hi, hj⟩, List.getD_eq_getElem?_getD, List.getElem?_map, List.getElem?_range hj,
      List.getD_eq_getElem?_getD, List.getElem?_map, List.getElem?_range hi]
    rfl
  have hrow : ∀ i ∈ List.range 800, ((List.range 800).mapM fun j =>
      kcLineLonLat (gridLatLon ((List.range 800).map mapY) ((List.range 800).map mapX) kcR) (kcTnt g) i j) = .ok ((List.range 800).map fun j =>
          ((xy2latlon (mapX j) (mapY i) kcR).2, (xy2latlon (mapX j) (mapY i) kcR).1,
            Flt.fin (energySum craters (mapX j) (mapY i) * 1000 ^ 2 / 4.184e9))) := by
    intro i hi
    apply mapM_all
    intro j hj
    unfold kcLineLonLat
    rw [hll i j (List.mem_range.1 hi) (List.mem_range.1 hj), hget i j (List.mem_range.1 hi) (List.mem_range.1 hj)]
    rfl
  have hr : (gridLatLon ((List.range 800).map mapY) ((List.range 800).map mapX) kcR).rows = 800 := by
    simp [gridLatLon]
  have hcl : (gridLatLon ((List.range 800).map mapY) ((List.range 800).map mapX) kcR).cols = 800 := by
    simp [gridLatLon]
  rw [hr, hcl, mapM_all _ _ _ hrow]
  refine ⟨_, rfl, flatten_len _ _, fun i j hi hj => ?_⟩
  obtain ⟨lat, h1, -, -, -, h2⟩ := south_lat (mapX j) (mapY i) (map_range hj).1 (map_range hi).2
  exact ⟨_, lat, by rw [flatten_get 800 _ i j hi hj, h1], h2⟩

/-- **C125 (partial)** the file of coordinates: 640000 lines, one for each point `(x, y)`, but the
energy in it is that at the mirrored point `(-y, -x)`.  Full claim: that at `(x, y)`; refuted below. -/
theorem C125_xy_partial (craters : List KcCrater) (hc : Southern craters) :
    ∃ lines, kcExportXY craters = .ok lines ∧ lines.length = 640000 ∧
      ∀ i j, i < 800 → j < 800 → lines[800 * i + j]? = some (mapX i, mapY j,
        .fin (energySum craters (-mapY j) (-mapX i) * 1000 ^ 2 / 4.184e9)) := by
  obtain ⟨g, hg, hget⟩ := tnt_get craters hc
  unfold kcExportXY
  rw [kcAxes_eq]
  simp only [bind, Except.bind]
  rw [hg]
  simp only [List.length_map, List.length_range]
  have hx : ∀ i, i < 800 → pyGet ((List.range 800).map mapX) i = .ok (mapX i) := by
    intro i hi
    unfold pyGet
    rw [List.getElem?_map, List.getElem?_range hi]; rfl
  have hy : ∀ i, i < 800 → pyGet ((List.range 800).map mapY) i = .ok (mapY i) := by
    intro i hi
    unfold pyGet
    rw [List.getElem?_map, List.getElem?_range hi]; rfl
  have hmir : ∀ i j, energySum craters (mapX j) (mapY i) = energySum craters (-mapY j) (-mapX i) := by
    intro i j
    congr 1 <;> unfold mapX mapY <;> ring
  have hrow : ∀ i ∈ List.range 800, ((List.range 800).mapM fun j =>
      kcLineXY ((List.range 800).map mapY) ((List.range 800).map mapX) (kcTnt g) i j) = .ok ((List.range 800).map fun j =>
          (mapX i, mapY j,
            Flt.fin (energySum craters (-mapY j) (-mapX i) * 1000 ^ 2 / 4.184e9))) := by
    intro i hi
    apply mapM_all
    intro j hj
    unfold kcLineXY
    rw [hx i (List.mem_range.1 hi), hy j (List.mem_range.1 hj),
      hget i j (List.mem_range.1 hi) (List.mem_range.1 hj), hmir]
    rfl
  rw [mapM_all _ _ _ hrow]
  exact ⟨_, rfl, flatten_len _ _, fun i j hi hj => flatten_get 800 _ i j hi hj⟩

/-- **C125** refuted: that the file of coordinates holds the energy at each point.  For one crater whose centre is
a point of the map, the line of this point shows ejecta where there is none. -/
theorem C125_xy_refuted : ∃ c : KcCrater, Southern [c] ∧ ∃ lines x y e, kcExportXY [c] = .ok lines ∧
    (x, y, Flt.fin e) ∈ lines ∧ energySum [c] x y = 0 ∧ 0 < e := by
  have h0 : mapX 400 = 0 := by unfold mapX; norm_num
  have h1 : mapY 300 = 100000 := by unfold mapY; norm_num
  obtain ⟨lat, -, l1, l2, -, l3⟩ := south_lat 0 100000 (by norm_num) (by rw [abs_of_pos] <;> norm_num)
  obtain ⟨R, hR⟩ : ∃ t, t = 1737400 * angle (southPoint 0 100000) (southPoint (-100000) 0) := ⟨_, rfl⟩
  have hne : ∀ u v, southPoint u v ≠ 0 := by
    intro u v h
    by_cases huv : u = 0 ∧ v = 0
    · have := congrFun (congrArg (fun v : EuclideanSpace ℝ (Fin 3) => v.ofLp) h) 2
      simp [southPoint, huv.1, huv.2] at this
    · rcases not_and_or.1 huv with hu | hu
      · have := congrFun (congrArg (fun v : EuclideanSpace ℝ (Fin 3) => v.ofLp) h) 1
        simp [southPoint] at this
        exact hu this
      · have := congrFun (congrArg (fun v : EuclideanSpace ℝ (Fin 3) => v.ofLp) h) 0
        simp [southPoint] at this
        exact hu this
  have hRp : 0 < R := by
    rw [hR]
    refine mul_pos (by norm_num) (lt_of_le_of_ne (angle_nonneg _ _) fun he => ?_)
    obtain ⟨-, r, hr, he⟩ := angle_eq_zero_iff.1 he.symm
    have := congrFun (congrArg (fun v : EuclideanSpace ℝ (Fin 3) => v.ofLp) he) 0
    simp [southPoint] at this
    exact hr.ne' this
  have hS : Southern [⟨lat, (xy2latlon 0 100000 kcR).2, R⟩] := by
    intro c hc
    rw [List.mem_singleton] at hc
    subst hc
    exact ⟨hRp, l1, l2⟩
  refine ⟨⟨lat, (xy2latlon 0 100000 kcR).2, R⟩, hS, ?_⟩
  obtain ⟨lines, e, -, hl⟩ := C125_xy_partial _ hS
  have hl' := hl 400 300 (by norm_num) (by norm_num)
  rw [h0, h1, neg_zero] at hl'
  refine ⟨lines, _, _, _, e, List.mem_of_getElem? hl', ?_, ?_⟩
  · simp only [energySum, List.map_cons, List.map_nil, List.sum_cons, List.sum_nil, add_zero, l3]
    rw [angle_self (hne _ _), mul_zero]
    exact (blanket_nonneg 0 R hRp (by positivity)).2.2 hRp
  · simp only [energySum, List.map_cons, List.map_nil, List.sum_cons, List.sum_nil, add_zero, l3]
    rw [← hR]
    have hlt : R < π * 1737400 := by
      rw [hR, ← l3]
      exact south_angle _ _ _ _ l1 l2 (by rw [abs_neg, abs_of_pos] <;> norm_num) (by norm_num)
    have := (blanket_nonneg R R hRp hlt).2.1 le_rfl
    positivity

/-- **C125** refuted: that the axes of the contour maps give the coordinates.  The label at a column is within
1 km of `x`, but the label at a row is within 1 km of `-y`. -/
theorem C125_axes_refuted : (∀ j < 800, |kcContourAt 800 j - mapX j / 1000| ≤ 1) ∧
    (∀ i < 800, |kcContourAt 800 i - -(mapY i) / 1000| ≤ 1) ∧
    ∀ i < 800, |kcContourAt 800 i - mapY i / 1000| ≤ 1 → i = 400 := by
  have key : ∀ j : Nat, j < 800 → |(800 : ℝ) * j / 799 - j| ≤ 1 := by
    intro j hj
    have h0 : (0 : ℝ) ≤ j := Nat.cast_nonneg j
    have h1 : (j : ℝ) ≤ 799 := by exact_mod_cast (by omega : j ≤ 799)
    rw [abs_le]
    constructor
    · rw [le_sub_iff_add_le, le_div_iff₀ (by norm_num)]; linarith
    · rw [sub_le_iff_le_add, div_le_iff₀ (by norm_num)]; linarith
  have he : ∀ i, kcContourAt 800 i = -400 + 800 * (i : ℝ) / 799 := by
    intro i
    unfold kcContourAt
    norm_num
  refine ⟨fun j hj => ?_, fun i hi => ?_, fun i hi h => ?_⟩
  · have := key j hj
    rw [he]
    unfold mapX
    rw [show -400 + (800 : ℝ) * j / 799 - (-400000 + 1000 * j) / 1000 = 800 * j / 799 - j by ring]
    exact this
  · have := key i hi
    rw [he]
    unfold mapY
    rw [show -400 + (800 : ℝ) * i / 799 - -(400000 - 1000 * i) / 1000 = 800 * i / 799 - i by ring]
    exact this
  · rw [he] at h
    unfold mapY at h
    rw [show -400 + (800 : ℝ) * i / 799 - (400000 - 1000 * i) / 1000 = (1599 * i - 639200) / 799 by ring,
      abs_le, le_div_iff₀ (by norm_num), div_le_iff₀ (by norm_num)] at h
    have h1 : (399 : ℝ) < i := by linarith [h.1]
    have h2 : (i : ℝ) < 401 := by linarith [h.2]
    have h1' : 399 < i := by exact_mod_cast h1
    have h2' : i < 401 := by exact_mod_cast h2
    omega

/-- **C125** melted ice: the heat that reaches the ice melts the mass returned, and the depth returned does not
depend on the fraction of ice. -/
theorem C125_melt (ke T Cp frac_mix frac_ice frac_rad : ℝ) (hL : 0 < 333 + Cp * (272 - T)) (hi : 0 < frac_ice) :
    ∃ m d, iceMelted ke T Cp frac_mix frac_ice frac_rad = (.fin m, .fin d) ∧
      m * (333 + Cp * (272 - T)) = frac_ice * (frac_rad * (frac_mix * (ke / 1000))) ∧
      d * 1500 * frac_ice = m ∧
      ∀ frac', 0 < frac' → (iceMelted ke T Cp frac_mix frac' frac_rad).2 = .fin d := by
  have h : ∀ f, 0 < f → iceMelted ke T Cp frac_mix f frac_rad =
      (.fin (f * frac_rad * frac_mix * (ke / 1000) / (333 + Cp * (272 - T))),
        .fin (f * frac_rad * frac_mix * (ke / 1000) / (333 + Cp * (272 - T)) / (f * 1500))) := by
    intro f hf
    unfold iceMelted npDiv
    simp only []
    rw [if_neg hL.ne']
    simp only []
    rw [if_neg (by positivity)]
  refine ⟨_, _, h _ hi, ?_, ?_, fun f hf => ?_⟩
  · rw [div_mul_cancel₀ _ hL.ne']; ring
  · have := hL.ne'
    field_simp
  · rw [h f hf]
    simp only []
    congr 1
    have := hL.ne'
    field_simp

open Classical in
/-- **C125** the craters used are the listed ones of at most 250 km, with half their diameters in metres. -/
theorem C125_craters (rows : List RawCrater) (c : KcCrater) :
    c ∈ kcCraters rows ↔ ∃ r ∈ rows, r.diam ≤ 250 ∧ c.lat = r.lat ∧ c.lon = r.lon ∧
      c.rad = 500 * r.diam := by
  unfold kcCraters
  rw [List.mem_map]
  constructor
  · rintro ⟨r, hr, rfl⟩
    obtain ⟨h1, h2⟩ := List.mem_filter.1 hr
    rw [decide_eq_true_eq] at h2
    exact ⟨r, h1, by norm_num at h2; linarith, rfl, rfl, by simp only []; ring⟩
  · rintro ⟨r, h1, h2, e1, e2, e3⟩
    refine ⟨r, List.mem_filter.2 ⟨h1, ?_⟩, ?_⟩
    · rw [decide_eq_true_eq]; norm_num; linarith
    · obtain ⟨a, b, d⟩ := c
      simp only [] at e1 e2 e3
      rw [e1, e2, e3]
      congr 1
      ring

example : Southern [⟨-89.7, 129.8, 10450⟩, ⟨-87.5, 354.8, 25700⟩] := by
  intro c hc
  simp at hc
  rcases hc with rfl | rfl <;> norm_num

example : 0 < (333 : ℝ) + 4.2 * (272 - 100) ∧ (0 : ℝ) < 0.056 := by norm_num

end MoonPIES
