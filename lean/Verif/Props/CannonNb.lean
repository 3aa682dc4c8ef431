import Verif.Model.CannonNb
import Verif.Props.Geo
import Verif.Props.AgesToTime
import Mathlib.Analysis.SpecialFunctions.Pow.Continuity

/-!
# C155: the notebook on the craters of Cannon et al. (2020)
-/

namespace MoonPIES

open Real

/-- **C155** The notebook's great-circle distance is the package's, for all coordinates. -/
theorem C155_gc (lon1 lat1 lon2 lat2 rp : ℝ) :
    nbGcDist lon1 lat1 lon2 lat2 rp = gcDist lon1 lat1 lon2 lat2 rp := by
  obtain ⟨h0, h1⟩ := haversine_range lon1 lat1 lon2 lat2
  have ha : haversine lon1 lat1 lon2 lat2 =
      sin ((deg2rad lat2 - deg2rad lat1) / 2) ^ 2 +
      cos (deg2rad lat1) * cos (deg2rad lat2) * sin ((deg2rad lon2 - deg2rad lon1) / 2) ^ 2 := rfl
  generalize haversine lon1 lat1 lon2 lat2 = a at *
  have e1 : npSqrt a = some (sqrt a) := by rw [npSqrt, if_neg (not_lt.2 h0)]
  have e2 : npSqrt (1 - a) = some (sqrt (1 - a)) := by
    rw [npSqrt, if_neg (not_lt.2 (by linarith))]
  have hs1 : sqrt a ≤ 1 := Real.sqrt_le_one.2 h1
  have e3 : npArcsin (sqrt a) = some (arcsin (sqrt a)) := by
    rw [npArcsin, if_neg]
    push Not
    exact ⟨by linarith [sqrt_nonneg a], hs1⟩
  have key : 2 * arctan2 (sqrt a) (sqrt (1 - a)) = 2 * arcsin (sqrt a) := by
    rw [two_arctan2_sqrt a h0 h1]
    have hc : cos (2 * arcsin (sqrt a)) = 1 - 2 * a := by
      rw [cos_two_mul, cos_sq', sin_arcsin (by linarith [sqrt_nonneg a]) hs1, sq_sqrt h0]; ring
    rw [← hc, arccos_cos]
    · have := arcsin_nonneg.2 (sqrt_nonneg a); linarith
    · have := arcsin_le_pi_div_two (sqrt a); linarith
  have hg : gcDist lon1 lat1 lon2 lat2 rp = some (rp * (2 * arctan2 (sqrt a) (sqrt (1 - a)))) := by
    unfold gcDist
    have : haversine lon1 lat1 lon2 lat2 = a := by rw [ha]; rfl
    simp only [this, e1, e2]
  rw [hg, key]
  unfold nbGcDist
  simp only [← ha, e1, Option.bind_some, e3, Option.map_some]
  rw [mul_assoc]

/-- What `get_ejecta_distances` is documented to hold: the distance from the place `(x, y)` to
the grid point, missing within the radius. -/
def IsEjDist (x y rad gx gy : ℝ) (d : Option ℝ) : Prop :=
  let r := sqrt ((gx - x) ^ 2 + (gy - y) ^ 2)
  (r < rad → d = none) ∧ (rad ≤ r → d = some r)

/-- **C155** The distances on the grid are those from twice the position of the crater. -/
theorem C155_doubled (c : NbCrater) (gx gy : ℝ) :
    IsEjDist (2 * c.x) (2 * c.y) c.rad gx gy (nbEjDist c gx gy) := by
  have e : cnDist c.x c.y (gx - c.x) (gy - c.y) =
      sqrt ((gx - 2 * c.x) ^ 2 + (gy - 2 * c.y) ^ 2) := by
    unfold cnDist
    congr 1
    ring
  unfold IsEjDist nbEjDist
  simp only [e]
  exact ⟨fun h => if_pos h, fun h => if_neg (not_lt.2 h)⟩

/-- **C155** They are the distances from the crater only for a crater at the pole. -/
theorem C155_distance_refuted (c : NbCrater) :
    (∀ gx gy, IsEjDist c.x c.y c.rad gx gy (nbEjDist c gx gy)) ↔ c.x = 0 ∧ c.y = 0 := by
  constructor
  · intro h
    by_contra hc
    have hpos : 0 < c.x ^ 2 + c.y ^ 2 := by
      rcases not_and_or.1 hc with hx | hy
      · have := pow_pos (abs_pos.2 hx) 2
        rw [sq_abs] at this
        nlinarith [sq_nonneg c.y]
      · have := pow_pos (abs_pos.2 hy) 2
        rw [sq_abs] at this
        nlinarith [sq_nonneg c.x]
    obtain ⟨L, hL⟩ : ∃ L, L = sqrt (c.x ^ 2 + c.y ^ 2) := ⟨_, rfl⟩
    have hLp : 0 < L := by rw [hL]; exact sqrt_pos.2 hpos
    have key : ∀ k : ℝ, 0 ≤ k → sqrt ((-(k * c.x)) ^ 2 + (-(k * c.y)) ^ 2) = k * L := by
      intro k hk
      rw [show (-(k * c.x)) ^ 2 + (-(k * c.y)) ^ 2 = k ^ 2 * (c.x ^ 2 + c.y ^ 2) by ring,
        sqrt_mul (sq_nonneg k), sqrt_sq hk, hL]
    obtain ⟨k, hk⟩ : ∃ k, k = |c.rad| / L := ⟨_, rfl⟩
    have hk0 : 0 ≤ k := by rw [hk]; positivity
    have hkL : k * L = |c.rad| := by rw [hk]; field_simp
    have h1 := (h (c.x - k * c.x) (c.y - k * c.y)).2
    have h2 := (C155_doubled c (c.x - k * c.x) (c.y - k * c.y)).2
    rw [show c.x - k * c.x - c.x = -(k * c.x) by ring,
      show c.y - k * c.y - c.y = -(k * c.y) by ring, key k hk0, hkL] at h1
    rw [show c.x - k * c.x - 2 * c.x = -((k + 1) * c.x) by ring,
      show c.y - k * c.y - 2 * c.y = -((k + 1) * c.y) by ring, key (k + 1) (by linarith)] at h2
    have e1 := h1 (le_abs_self _)
    have e2 := h2 (by nlinarith [le_abs_self c.rad])
    rw [e1] at e2
    injection e2 with e2
    nlinarith
  · rintro ⟨hx, hy⟩ gx gy
    have := C155_doubled c gx gy
    rw [hx, hy] at this ⊢
    simpa using this

/-- Two different answers at one grid point: the crater at (100, 0) with radius 10. -/
example : ¬ ∀ gx gy, IsEjDist 100 0 10 gx gy (nbEjDist ⟨100, 0, 10⟩ gx gy) := fun h => by
  have := (C155_distance_refuted ⟨100, 0, 10⟩).1 h
  norm_num at this

/-- **C155** With the open grids of `np.ogrid` the function raises for any crater, unless the
grid has a single column. -/
theorem C155_raises (df : List NbCrater) (gx gy : List ℝ) (hd : df ≠ []) :
    (gy.length ≠ 1 → nbEjectaDistances df gx gy = .error .valueError) ∧
      (gy.length = 1 → ∃ out, nbEjectaDistances df gx gy = .ok out) := by
  obtain ⟨c, cs, rfl⟩ := List.exists_cons_of_ne_nil hd
  constructor
  · intro h
    unfold nbEjectaDistances
    rw [List.mapM_cons]
    have : assignSlice gx.length 1 gx.length gy.length
        (fun i j => nbEjDist c (gx.getD i 0) (gy.getD j 0)) = .error .valueError := by
      unfold assignSlice
      rw [if_neg]
      rintro ⟨_, h' | h'⟩ <;> exact h h'
    rw [this]
    rfl
  · intro h
    unfold nbEjectaDistances
    generalize c :: cs = l
    induction l with
    | nil => exact ⟨[], rfl⟩
    | cons a l ih =>
      obtain ⟨o, ho⟩ := ih
      rw [List.mapM_cons, ho]
      have : ∃ v, assignSlice gx.length 1 gx.length gy.length
          (fun i j => nbEjDist a (gx.getD i 0) (gy.getD j 0)) = .ok v := by
        unfold assignSlice
        rw [if_pos ⟨Or.inl rfl, Or.inl h⟩]
        exact ⟨_, rfl⟩
      obtain ⟨v, hv⟩ := this
      rw [hv]
      exact ⟨_, rfl⟩

/-- The notebook's 800 by 800 grid. -/
example (c : NbCrater) : nbEjectaDistances [c] ((List.range 800).map (fun i : Nat => (i : ℝ) - 400))
    ((List.range 800).map (fun i : Nat => (i : ℝ) - 400)) = .error .valueError :=
  (C155_raises [c] _ _ (by simp)).1 (by rw [List.length_map, List.length_range]; norm_num)

/-- **C155** The cell that repeats the loop raises for the notebook's step of half a kilometre,
whatever the size of the grid, and completes for a step of one. -/
theorem C155_grid_cell (c : NbCrater) (g : Nat) (hg : 0 < g) :
    nbGridCell c g (1 / 2) = .error .valueError ∧
      ∃ v, nbGridCell c g 1 = .ok v ∧ ∀ i j, i < 2 * g → j < 2 * g →
        v i j = nbEjDist c (-g + i) (-g + j) := by
  have l1 : ogridLen g (1 / 2) = 4 * g := by
    unfold ogridLen
    rw [show ((g : ℝ) - -(g : ℝ)) / (1 / 2) = ((4 * g : Nat) : ℝ) by push_cast; ring,
      Int.ceil_natCast, Int.toNat_natCast]
  have l2 : ogridLen g 1 = 2 * g := by
    unfold ogridLen
    rw [show ((g : ℝ) - -(g : ℝ)) / 1 = ((2 * g : Nat) : ℝ) by push_cast; ring,
      Int.ceil_natCast, Int.toNat_natCast]
  constructor
  · unfold nbGridCell assignSlice
    simp only [l1]
    rw [if_neg]
    omega
  · refine ⟨fun i j => nbEjDist c (-g + i) (-g + j), ?_, fun i j _ _ => rfl⟩
    unfold nbGridCell assignSlice
    simp only [l2]
    rw [if_pos (by omega)]
    congr 1
    funext i j
    rw [if_neg (by omega), if_neg (by omega), mul_one, mul_one]

example (c : NbCrater) : nbGridCell c 400 (1 / 2) = .error .valueError :=
  (C155_grid_cell c 400 (by norm_num)).1

/-- The point `(px, py)` of the map is covered by ejecta out to four radii. -/
def CoveredBy (r : NbRow) (px py : ℝ) : Prop :=
  sqrt ((px - r.crater.x) ^ 2 + (py - r.crater.y) ^ 2) ≤ 4 * r.crater.rad

theorem covered_abs {r : NbRow} {px py : ℝ} (h : CoveredBy r px py) :
    |r.crater.x| ≤ |px| + 4 * r.crater.rad ∧ |r.crater.y| ≤ |py| + 4 * r.crater.rad := by
  unfold CoveredBy at h
  have hx : |px - r.crater.x| ≤ 4 * r.crater.rad := by
    refine le_trans ?_ h
    rw [← sqrt_sq_eq_abs]
    exact sqrt_le_sqrt (by nlinarith [sq_nonneg (py - r.crater.y)])
  have hy : |py - r.crater.y| ≤ 4 * r.crater.rad := by
    refine le_trans ?_ h
    rw [← sqrt_sq_eq_abs]
    exact sqrt_le_sqrt (by nlinarith [sq_nonneg (px - r.crater.x)])
  have a1 := abs_sub_abs_le_abs_sub r.crater.x px
  have a2 := abs_sub_abs_le_abs_sub r.crater.y py
  rw [abs_sub_comm] at a1 a2
  constructor <;> linarith

/-- **C155** No crater is missed by the first selection: one of the smallest diameter whose
ejecta cover some point within the grid is selected. -/
theorem C155_near (r : NbRow) (px py : ℝ) (hd : 20.9 ≤ r.diam) (hx : |px| < 400)
    (hy : |py| < 400) (h : CoveredBy r px py) : nearGrd r := by
  obtain ⟨a, b⟩ := covered_abs h
  exact ⟨hd, by linarith, by linarith⟩

/-- **C155** Likewise in the last selection among those called outside. -/
theorem C155_reaches (r : NbRow) (px py : ℝ) (ho : nbOutside r) (hx : |px| < 181.94)
    (hy : |py| < 181.94) (h : CoveredBy r px py) : nbReaches r := by
  obtain ⟨a, b⟩ := covered_abs h
  exact ⟨ho, by linarith, by linarith⟩

/-- **C155** The map cannot tell north from south: a crater is in each selection exactly when its
mirror image on the other hemisphere is. -/
theorem C155_mirror (lat lon diam : ℝ) :
    (nearGrd ⟨-lat, lon, diam⟩ ↔ nearGrd ⟨lat, lon, diam⟩) ∧
      (nbInside ⟨-lat, lon, diam⟩ ↔ nbInside ⟨lat, lon, diam⟩) ∧
      (nbOutside ⟨-lat, lon, diam⟩ ↔ nbOutside ⟨lat, lon, diam⟩) ∧
      (nbReaches ⟨-lat, lon, diam⟩ ↔ nbReaches ⟨lat, lon, diam⟩) := by
  have e : (NbRow.mk (-lat) lon diam).crater = (NbRow.mk lat lon diam).crater := by
    unfold NbRow.crater latlon2xy deg2rad
    simp only [neg_mul, cos_neg]
  unfold nbReaches nbOutside nbInside nearGrd
  rw [e]
  exact ⟨Iff.rfl, Iff.rfl, Iff.rfl, Iff.rfl⟩

theorem deg2rad_90 : deg2rad 90 = π / 2 := by unfold deg2rad; ring
theorem deg2rad_60 : deg2rad 60 = π / 3 := by unfold deg2rad; ring
theorem deg2rad_45 : deg2rad 45 = π / 4 := by unfold deg2rad; ring

/-- **C155** The north pole is "within 250 km of S. pole", though half way around the Moon. -/
theorem C155_inside_refuted (lon diam : ℝ) (hd : 20.9 ≤ diam) :
    nbInside ⟨90, lon, diam⟩ ∧ gcDist lon 90 0 (-90) 1737 = some (1737 * π) := by
  have e : (NbRow.mk 90 lon diam).crater = ⟨0, 0, diam / 2⟩ := by
    unfold NbRow.crater latlon2xy
    simp [deg2rad_90]
  constructor
  · unfold nbInside nearGrd
    rw [e]
    simp only [abs_zero]
    exact ⟨⟨hd, by linarith, by linarith⟩, by norm_num, by norm_num⟩
  · have hh : haversine lon 90 0 (-90) = 1 := by
      unfold haversine deg2rad
      simp only []
      rw [show (-90 * (π / 180) - 90 * (π / 180)) / 2 = -(π / 2) by ring,
        show (90 * (π / 180) : ℝ) = π / 2 by ring]
      simp
    unfold gcDist
    simp only [hh, npSqrt, sub_self, lt_irrefl, if_false, sqrt_zero, sqrt_one]
    rw [if_neg (by norm_num)]
    simp only []
    have : 2 * arctan2 1 0 = π := by
      have := two_arctan2_sqrt 1 (by norm_num) le_rfl
      simp only [sqrt_one, sub_self, sqrt_zero] at this
      rw [this]
      norm_num
    rw [this]

theorem crater_60_45 (diam : ℝ) : (NbRow.mk 60 45 diam).crater =
    ⟨1737 * (1 / 2) * (√2 / 2), 1737 * (1 / 2) * (√2 / 2), diam / 2⟩ := by
  unfold NbRow.crater latlon2xy
  simp [deg2rad_60, deg2rad_45]

/-- **C155** A crater may be selected as reaching within 6 degrees of the pole though its ejecta
cover no point of the map that close, because each coordinate is tested by itself; and this one
lies on the northern hemisphere besides. -/
theorem C155_reaches_refuted :
    nbReaches ⟨60, 45, 240⟩ ∧ ∀ px py, CoveredBy ⟨60, 45, 240⟩ px py → 181.94 < |px| ∨ 181.94 < |py| := by
  have s1 : (1.414 : ℝ) < √2 := by
    rw [lt_sqrt (by norm_num)]; norm_num
  have s2 : √2 < (1.415 : ℝ) := by
    rw [sqrt_lt' (by norm_num)]; norm_num
  constructor
  · unfold nbReaches nbOutside nearGrd
    rw [crater_60_45]
    have a : |1737 * (1 / 2) * (√2 / 2)| = 1737 * (1 / 2) * (√2 / 2) := abs_of_pos (by positivity)
    simp only [a]
    exact ⟨⟨⟨by norm_num, by linarith, by linarith⟩, by linarith, by linarith⟩, by linarith,
      by linarith⟩
  · intro px py h
    by_contra hc
    push Not at hc
    obtain ⟨hx, hy⟩ := hc
    unfold CoveredBy at h
    rw [crater_60_45] at h
    simp only [] at h
    have hx' := (abs_le.1 hx).2
    have hy' := (abs_le.1 hy).2
    rw [sqrt_le_left (by norm_num)] at h
    nlinarith [sq_nonneg (px - 181.94), sq_nonneg (py - 181.94)]

/-- **C155** A crater may cover the pole itself and yet be in neither list: one of the two
coordinates below 400 is enough not to be called outside.  Its centre is 30 degrees from the pole. -/
theorem C155_outside_refuted :
    CoveredBy ⟨-60, 0, 500⟩ 0 0 ∧ nearGrd ⟨-60, 0, 500⟩ ∧ ¬ nbInside ⟨-60, 0, 500⟩ ∧
      ¬ nbOutside ⟨-60, 0, 500⟩ := by
  have e : (NbRow.mk (-60) 0 500).crater = ⟨0, 1737 * (1 / 2), 250⟩ := by
    have h : deg2rad (-60) = -(π / 3) := by unfold deg2rad; ring
    have h0 : deg2rad 0 = 0 := by unfold deg2rad; ring
    unfold NbRow.crater latlon2xy
    simp only [h, h0, cos_neg, cos_pi_div_three, sin_zero, cos_zero]
    norm_num
  have hc : CoveredBy ⟨-60, 0, 500⟩ 0 0 := by
    unfold CoveredBy
    rw [e]
    rw [sqrt_le_left (by norm_num)]
    norm_num
  refine ⟨hc, C155_near _ 0 0 (by norm_num) (by norm_num) (by norm_num) hc, ?_, ?_⟩
  · rintro ⟨_, _, h⟩
    rw [e] at h
    rw [abs_of_pos (by norm_num)] at h
    norm_num at h
  · rintro ⟨_, h, _⟩
    rw [e] at h
    norm_num at h

/-- **C155** The transient radius grows strictly with the radius, through the change from simple
to complex, and is at most 0.7 of it. -/
theorem C155_transient {rsc : ℝ} (hr : 0 < rsc) :
    StrictMonoOn (fun rad => nbTransient rad rsc) (Set.Ici 0) ∧
      ∀ rad, 0 ≤ rad → 0 ≤ nbTransient rad rsc ∧ nbTransient rad rsc ≤ 0.7 * rad := by
  have split : ∀ x : ℝ, 0 < x → x ^ (0.15 : ℝ) * x ^ (0.85 : ℝ) = x := by
    intro x hx
    rw [← rpow_add hx]; norm_num
  have cplx : ∀ rad, rsc ≤ rad → 0.7 * rsc ≤ 0.7 * rsc ^ (0.15 : ℝ) * rad ^ (0.85 : ℝ) ∧
      0.7 * rsc ^ (0.15 : ℝ) * rad ^ (0.85 : ℝ) ≤ 0.7 * rad := by
    intro rad h
    have hp : 0 < rad := hr.trans_le h
    have m1 : rsc ^ (0.85 : ℝ) ≤ rad ^ (0.85 : ℝ) := rpow_le_rpow hr.le h (by norm_num)
    have m2 : rsc ^ (0.15 : ℝ) ≤ rad ^ (0.15 : ℝ) := rpow_le_rpow hr.le h (by norm_num)
    have p1 : 0 < rsc ^ (0.15 : ℝ) := rpow_pos_of_pos hr _
    have p2 : 0 < rad ^ (0.85 : ℝ) := rpow_pos_of_pos hp _
    have q1 := mul_le_mul_of_nonneg_left m1 p1.le
    have q2 := mul_le_mul_of_nonneg_right m2 p2.le
    rw [split rsc hr] at q1
    rw [split rad hp] at q2
    constructor <;> nlinarith
  constructor
  · intro a ha b hb hab
    simp only [nbTransient]
    simp only [Set.mem_Ici] at ha hb
    split_ifs with h1 h2 h2
    · linarith
    · have := (cplx b (not_lt.1 h2)).1
      linarith
    · linarith
    · have p1 : 0 < rsc ^ (0.15 : ℝ) := rpow_pos_of_pos hr _
      have := rpow_lt_rpow ha hab (by norm_num : (0 : ℝ) < 0.85)
      nlinarith
  · intro rad h
    simp only [nbTransient]
    split_ifs with h1
    · constructor <;> linarith
    · obtain ⟨a, b⟩ := cplx rad (not_lt.1 h1)
      exact ⟨by linarith, b⟩

example : nbTransient 5 9.5 = 0.7 * 5 := by
  unfold nbTransient
  rw [if_pos (by norm_num)]

/-- **C155** The latitudes of the polar grid: `2 * (size / 2) + 1` of them, so that the grid is
square exactly for odd sizes; the same from both ends; all within `deg` of the pole; and the pole in
the middle when there is more than one. -/
theorem C155_polar (deg : ℝ) (size : Nat) (north : Bool) (hd : 0 ≤ deg) :
    ∃ l, polarLats deg size north = .ok l ∧ l.length = 2 * (size / 2) + 1 ∧
      (l.length = size ↔ size % 2 = 1) ∧ l.reverse = l ∧
      (∀ x ∈ l, |x - (if north then 90 else -90)| ≤ deg) ∧
      (2 ≤ size → l[size / 2]? = some (if north then 90 else -90)) := by
  obtain ⟨p, hp⟩ : ∃ p : ℝ, p = if north then 90 else -90 := ⟨_, rfl⟩
  obtain ⟨s, hs⟩ : ∃ s : ℝ, s = if north then 1 else -1 := ⟨_, rfl⟩
  have hsp : s * 90 = p := by rw [hs, hp]; cases north <;> norm_num
  have hs1 : |s| = 1 := by rw [hs]; cases north <;> norm_num
  obtain ⟨k, hk⟩ : ∃ k, k = size / 2 := ⟨_, rfl⟩
  -- the first half
  obtain ⟨h, hh, hlen, hmem, hlast⟩ : ∃ h : List ℝ,
      linspace (s * (90 - deg)) (s * 90) ((k + 1 : Nat) : Int) = .ok h ∧ h.length = k + 1 ∧
      (∀ x ∈ h, |x - p| ≤ deg) ∧ (1 ≤ k → h[k]? = some p) := by
    unfold linspace
    rw [if_neg (by omega)]
    have base : s * (90 - deg) - p = -(s * deg) := by rw [← hsp]; ring
    by_cases h0 : k = 0
    · subst h0
      rw [if_pos (by norm_num)]
      refine ⟨_, rfl, rfl, ?_, by omega⟩
      intro x hx
      rw [List.mem_singleton] at hx
      rw [hx, base, abs_neg, abs_mul, hs1, one_mul, abs_of_nonneg hd]
    · rw [if_neg (by omega)]
      have hk' : (0 : ℝ) < k := by exact_mod_cast Nat.pos_of_ne_zero h0
      refine ⟨_, rfl, by simp, ?_, ?_⟩
      · intro x hx
        rw [List.mem_map] at hx
        obtain ⟨i, hi, rfl⟩ := hx
        rw [List.mem_range, Int.toNat_natCast] at hi
        have hik : (i : ℝ) ≤ k := by exact_mod_cast Nat.lt_succ_iff.1 hi
        have e : s * (90 - deg) + (i : ℝ) * ((s * 90 - s * (90 - deg)) /
            ((((k + 1 : Nat) : Int).toNat : ℝ) - 1)) - p = -(s * (deg * (1 - i / k))) := by
          rw [Int.toNat_natCast, ← hsp]
          push_cast
          rw [add_sub_cancel_right]
          field_simp
          ring
        have f1 : (i : ℝ) / k ≤ 1 := by rw [div_le_one hk']; exact hik
        have f2 : 0 ≤ (i : ℝ) / k := by positivity
        rw [e, abs_neg, abs_mul, hs1, one_mul, abs_of_nonneg (mul_nonneg hd (by linarith))]
        nlinarith
      · intro _
        rw [List.getElem?_map, List.getElem?_range (by simp)]
        simp only [Option.map_some, Option.some.injEq, Int.toNat_natCast]
        rw [← hsp]
        push_cast
        rw [add_sub_cancel_right]
        field_simp
        ring
  refine ⟨h ++ h.dropLast.reverse, ?_, ?_, ?_, ?_, ?_, ?_⟩
  · unfold polarLats
    simp only []
    rw [← hs, ← hk, hh]
  · simp [hlen, ← hk]; omega
  · simp [hlen]; omega
  · have hne : h ≠ [] := by intro e; rw [e] at hlen; simp at hlen
    conv_rhs => rw [← List.dropLast_append_getLast hne]
    rw [List.reverse_append, List.reverse_reverse]
    conv_lhs => rw [← List.dropLast_append_getLast hne]
    simp
  · rw [← hp]
    intro x hx
    rw [List.mem_append, List.mem_reverse] at hx
    exact hmem x (hx.elim id (fun h' => List.dropLast_subset _ h'))
  · intro h2
    rw [← hp, ← hk, List.getElem?_append_left (by omega)]
    exact hlast (by omega)

/-- **C155** `nearest2D` returns the position in the flattened grid of a nearest grid point, and
raises only for an empty grid. -/
theorem C155_nearest (x y : ℝ) (xarr yarr : List ℝ) :
    ((xarr = [] ∨ yarr = []) → nearest2D x y xarr yarr = .error .valueError) ∧
    (xarr ≠ [] → yarr ≠ [] → ∃ i gx gy, nearest2D x y xarr yarr = .ok i ∧
      xarr[i / yarr.length]? = some gx ∧ yarr[i % yarr.length]? = some gy ∧
      ∀ hx ∈ xarr, ∀ hy ∈ yarr,
        (gx - x) ^ 2 + (gy - y) ^ 2 ≤ (hx - x) ^ 2 + (hy - y) ^ 2) := by
  constructor
  · intro h
    have : xarr.flatMap (fun gx => yarr.map (fun gy => sqrt ((gx - x) ^ 2 + (gy - y) ^ 2))) = [] := by
      rcases h with h | h <;> simp [h]
    unfold nearest2D
    rw [this]
    rfl
  · intro hx hy
    have flat : ∀ (l : List ℝ) (i : Nat) (v : ℝ),
        (l.flatMap (fun gx => yarr.map (fun gy => sqrt ((gx - x) ^ 2 + (gy - y) ^ 2))))[i]? = some v →
        ∃ gx gy, l[i / yarr.length]? = some gx ∧ yarr[i % yarr.length]? = some gy ∧
          v = sqrt ((gx - x) ^ 2 + (gy - y) ^ 2) := by
      have hlen : 0 < yarr.length := List.length_pos_iff.2 hy
      intro l
      induction l with
      | nil => intro i v h; simp at h
      | cons a l ih =>
        intro i v h
        rw [List.flatMap_cons] at h
        by_cases hi : i < yarr.length
        · rw [List.getElem?_append_left (by simpa using hi), List.getElem?_map] at h
          rw [Nat.div_eq_of_lt hi, Nat.mod_eq_of_lt hi]
          rw [List.getElem?_eq_getElem hi] at h ⊢
          simp only [Option.map_some, Option.some.injEq] at h
          exact ⟨a, _, rfl, rfl, h.symm⟩
        · rw [List.getElem?_append_right (by simpa using hi), List.length_map] at h
          obtain ⟨gx, gy, h1, h2, h3⟩ := ih _ _ h
          have hge : yarr.length ≤ i := not_lt.1 hi
          refine ⟨gx, gy, ?_, ?_, h3⟩
          · have : i / yarr.length = (i - yarr.length) / yarr.length + 1 := by
              conv_lhs => rw [← Nat.sub_add_cancel hge]
              rw [Nat.add_div_right _ hlen]
            rw [this, List.getElem?_cons_succ]
            exact h1
          · rw [Nat.mod_eq_sub_mod hge]
            exact h2
    obtain ⟨a, xs, rfl⟩ := List.exists_cons_of_ne_nil hx
    obtain ⟨b, ys, rfl⟩ := List.exists_cons_of_ne_nil hy
    obtain ⟨i, hi⟩ := argmin_total (l := (a :: xs).flatMap (fun gx => (b :: ys).map
      (fun gy => sqrt ((gx - x) ^ 2 + (gy - y) ^ 2)))) (by simp)
    obtain ⟨v, h1, h2, _⟩ := argmin_spec hi
    obtain ⟨gx, gy, g1, g2, g3⟩ := flat _ _ _ h1
    refine ⟨i, gx, gy, hi, g1, g2, ?_⟩
    intro hx' hxm hy' hym
    have hm : sqrt ((hx' - x) ^ 2 + (hy' - y) ^ 2) ∈ (a :: xs).flatMap (fun gx => (b :: ys).map
        (fun gy => sqrt ((gx - x) ^ 2 + (gy - y) ^ 2))) := by
      rw [List.mem_flatMap]
      exact ⟨hx', hxm, List.mem_map.2 ⟨hy', hym, rfl⟩⟩
    obtain ⟨j, hj⟩ := List.getElem?_of_mem hm
    have := h2 j _ hj
    rw [g3] at this
    exact (sqrt_le_sqrt_iff (by positivity)).1 this

example : ∃ i gx gy, nearest2D 1.2 0 [0, 1, 2] [0, 5] = .ok i ∧ [0, 1, 2][i / 2]? = some gx ∧
    [0, (5 : ℝ)][i % 2]? = some gy ∧ (gx - 1.2) ^ 2 + (gy - 0) ^ 2 ≤ (1 - 1.2) ^ 2 + (0 - 0) ^ 2 := by
  obtain ⟨i, gx, gy, h1, h2, h3, h4⟩ := (C155_nearest 1.2 0 [0, 1, 2] [0, 5]).2 (by simp) (by simp)
  exact ⟨i, gx, gy, h1, h2, h3, h4 1 (by simp) 0 (by simp)⟩

end MoonPIES
