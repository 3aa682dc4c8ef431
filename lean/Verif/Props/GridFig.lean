import Verif.Props.Grid
import Verif.Props.EjectaThick
import Verif.Model.GridFig

/-!
# C96: gridded ejecta thickness, and its figure
-/

namespace MoonPIES

open Real InnerProductGeometry

/-- Spec: the point `(x, y)` of the polar map lies on the ejecta blanket of a crater, at the
distance `d` from its centre along the surface: not inside the crater, not beyond the threshold. -/
def Spec.BlanketAt (cfg : EjCfg) (c : Crater) (x y d : ℝ) : Prop :=
  ∃ lat, (xy2latlon x y cfg.rad_moon).1 = some lat ∧
    d = surfaceDist c lat (xy2latlon x y cfg.rad_moon).2 ∧ c.rad ≤ d ∧ d ≤ thresholdOf cfg c * c.rad

/-- Spec: the thickness at a point of the map: the law of the crater's own size class at its
distance, nothing off the blanket. -/
def Spec.GridThickness (cfg : EjCfg) (c : Crater) (x y : ℝ) (t : Flt) : Prop :=
  ((∀ d, ¬ BlanketAt cfg c x y d) → t = .fin 0) ∧
  ∀ d, BlanketAt cfg c x y d → t = ejThickness cfg (some d) c.rad ∧
    (0 < c.rad → cfg.simple2complex ≤ cfg.complex2peakring →
      (c.rad < cfg.simple2complex / 2 → t = .fin (0.04 * c.rad * (d / c.rad) ^ cfg.ej_thickness_exp)) ∧
      (cfg.simple2complex / 2 < c.rad → c.rad < cfg.complex2peakring / 2 →
        t = .fin (0.14 * c.rad ^ (0.74 : ℝ) * (d / c.rad) ^ cfg.ej_thickness_exp)))

theorem gridThickness_unique (cfg : EjCfg) (c : Crater) (x y : ℝ) (t t' : Flt) (h : Spec.GridThickness cfg c x y t)
    (h' : Spec.GridThickness cfg c x y t') : t = t' := by
  by_cases hd : ∃ d, Spec.BlanketAt cfg c x y d
  · obtain ⟨d, hd⟩ := hd
    rw [(h.2 d hd).1, (h'.2 d hd).1]
  · have hd' : ∀ d, ¬ Spec.BlanketAt cfg c x y d := fun d h => hd ⟨d, h⟩
    rw [h.1 hd', h'.1 hd']

/-- **C96 (partial: square grids)** Full claim: for every grid (refuted below for rectangles).  For a
table with the labels of a fresh index, the outputs are the age grid and one slice per crater, in the
order of the table, and each slice holds at every grid point the thickness of that crater's ejecta. -/
theorem C96_thickness_partial (cfg : EjCfg) (timestart : ℝ) (df sorted : List DatedCrater) (ys xs : List ℝ)
    (hsq : ys.length = xs.length) (hlab : ∀ (k : Nat) c, df[k]? = some c → c.label = k) :
    ∃ ages thick, getGridOutputs cfg timestart df sorted ys xs = .ok (ages, thick) ∧
      getAgeGrid cfg timestart sorted ys xs = .ok ages ∧ thick.length = df.length ∧
      ∀ (k : Nat) c, df[k]? = some c → ∃ g, thick[k]? = some g ∧ g.rows = ys.length ∧ g.cols = xs.length ∧
        ∀ (i j : Nat) (y x : ℝ), ys[i]? = some y → xs[j]? = some x →
          Spec.GridThickness cfg c.toCrater x y (g.entry i j) := by
  obtain ⟨ages, hages, -, -, -⟩ := ageLoop_square cfg (gridLatLon ys xs cfg.rad_moon) hsq sorted
    ⟨xs.length, ys.length, fun _ _ => timestart⟩ hsq.symm hsq
  obtain ⟨gs, hgs, hlen, hk⟩ := C68_dist_grid_partial cfg df ys xs hsq hlab
  refine ⟨ages, List.zipWith (fun (c : DatedCrater) (a : Arr2 (Option ℝ)) =>
    ⟨a.rows, a.cols, fun i j => ejThickness cfg (a.entry i j) c.rad⟩) df gs, ?_, hages, ?_, ?_⟩
  · unfold getGridOutputs
    rw [show getAgeGrid cfg timestart sorted ys xs = .ok ages from hages, hgs]
    rfl
  · simp [hlen]
  · intro k c hc
    obtain ⟨g, hg, h1, h2, h3⟩ := hk k c hc
    refine ⟨_, List.getElem?_zipWith_eq_some.mpr ⟨c, g, hc, hg, rfl⟩, h1, h2, ?_⟩
    intro i j y x hy hx
    have hiff := h3 i j y x hy hx
    constructor
    · intro hno
      cases he : g.entry i j with
      | none => simp only [he]; rfl
      | some d =>
        obtain ⟨lat, e1, e2, e3, e4⟩ := (hiff d).mp he
        exact absurd ⟨lat, e1, e2, e3, e4⟩ (hno d)
    · intro d hd
      have he := (hiff d).mpr hd
      obtain ⟨-, -, -, hrd, -⟩ := hd
      simp only [he]
      refine ⟨trivial, fun hr hs2c => ?_⟩
      have hd0 : 0 < d := lt_of_lt_of_le hr hrd
      exact ⟨fun h => thick_simple cfg d c.rad hd0 hr h hs2c, fun h h' => thick_complex cfg d c.rad hd0 hr h h'⟩

/-- **C96 refuted** for rectangular grids: with at least one crater the outputs raise `ValueError`. -/
theorem C96_refuted_rectangular (cfg : EjCfg) (timestart : ℝ) (df sorted : List DatedCrater) (hperm : sorted.Perm df)
    (hne : df ≠ []) (ys xs : List ℝ) (hs : ys.length ≠ xs.length) (hy : ys.length ≠ 1) (hx : xs.length ≠ 1) :
    getGridOutputs cfg timestart df sorted ys xs = .error .valueError := by
  cases sorted with
  | nil => exact absurd hperm.symm.eq_nil hne
  | cons c rest =>
    unfold getGridOutputs
    rw [C67_refuted_rectangular cfg timestart c rest ys xs hs hy hx]
    rfl

/-! ## The figure -/

theorem fltNansum_fin (l : List ℝ) : fltNansum (l.map .fin) = .fin l.sum := by
  have : ∀ (l : List ℝ) (a : ℝ), (l.map Flt.fin).foldl (fun (a b : Flt) => a.add b.nanToZero) (Flt.fin a) = Flt.fin (a + l.sum) := by
    intro l
    induction l with
    | nil => intro a; simp
    | cons x l ih =>
      intro a
      rw [List.map_cons, List.foldl_cons]
      show (l.map Flt.fin).foldl _ (Flt.fin (a + x)) = _
      rw [ih, List.sum_cons, add_assoc]
  unfold fltNansum
  rw [this, zero_add]

/-- **C96** the figure shows, at every point of a square grid, the age of the default configuration in Gyr and the
sum over all craters of the thickness of their ejecta with the default configuration, as far as these are finite. -/
theorem C96_figure_partial (cfg : EjCfg) (timestart : ℝ) (df sorted : List DatedCrater) (ys xs : List ℝ)
    (hsq : ys.length = xs.length) (hlab : ∀ (k : Nat) c, df[k]? = some c → c.label = k) :
    ∃ age cum ages, gridPlots cfg timestart df sorted ys xs = .ok (age, cum) ∧
      getAgeGrid EjCfg.default 4.25e9 sorted ys xs = .ok ages ∧
      (∀ i j, age.entry i j * 1e9 = ages.entry i j) ∧ cum.rows = ys.length ∧ cum.cols = xs.length ∧
      ∀ (i j : Nat) (y x : ℝ), ys[i]? = some y → xs[j]? = some x → ∀ ts : List ℝ,
        List.Forall₂ (fun c t => Spec.GridThickness EjCfg.default c.toCrater x y (.fin t)) df ts →
        cum.entry i j = .fin ts.sum := by
  obtain ⟨ages, thick, h, hages, hlen, hk⟩ := C96_thickness_partial EjCfg.default defaultStart df sorted ys xs hsq hlab
  refine ⟨⟨ages.rows, ages.cols, fun i j => ages.entry i j / 1e9⟩, sumSlices xs.length ys.length thick, ages, ?_, hages,
    ?_, hsq.symm, hsq, ?_⟩
  · unfold gridPlots
    rw [h]
    rfl
  · intro i j
    show ages.entry i j / 1e9 * 1e9 = _
    rw [div_mul_cancel₀ _ (by norm_num)]
  · intro i j y x hy hx ts hall
    have hts := hall.length_eq
    show fltNansum (thick.map (fun g => g.entry i j)) = _
    rw [← fltNansum_fin]
    congr 1
    apply List.ext_getElem?
    intro k
    rw [List.getElem?_map, List.getElem?_map]
    rcases lt_or_ge k df.length with hlt | hge
    · obtain ⟨g, hg, -, -, hth⟩ := hk k df[k] (List.getElem?_eq_getElem hlt)
      have ht : ts[k]? = some ts[k] := List.getElem?_eq_getElem (by omega)
      rw [hg, ht, Option.map_some, Option.map_some]
      congr 1
      exact gridThickness_unique _ _ _ _ _ _ (hth i j y x hy hx) (List.Forall₂.get hall hlt (by omega))
    · rw [List.getElem?_eq_none (by omega), List.getElem?_eq_none (by omega)]
      rfl

/-! ## A place on the map -/

theorem map_centre (cfg : EjCfg) (h : 0 < cfg.rad_moon) : (xy2latlon 0 0 cfg.rad_moon).1 = some (-90) := by
  unfold xy2latlon npSqrt
  rw [if_neg (by nlinarith)]
  simp only [Option.map_some, Option.some.injEq]
  rw [show cfg.rad_moon ^ 2 - (0 : ℝ) ^ 2 - 0 ^ 2 = cfg.rad_moon ^ 2 by ring,
    Real.sqrt_sq h.le, div_self h.ne', Real.arcsin_one]
  unfold rad2deg
  field_simp
  norm_num

/-- A crater of radius 1000 km on the equator, three billion years old. -/
noncomputable def equatorial : DatedCrater :=
  { cname := "E", lon := 0, lat := 0, rad := 1000000, isbasin := false, psr := none, age := 3000000000, label := 0 }

theorem equatorial_dist (lon : ℝ) : surfaceDist equatorial.toCrater (-90) lon = 1737400 * (π / 2) := by
  rw [← pole_equator]
  unfold surfaceDist poleCrater equatorial
  rw [angle_comm]
  congr 2
  have : Real.cos (-90 * π / 180) = 0 := by
    rw [show (-90 : ℝ) * π / 180 = -(π / 2) by ring, Real.cos_neg, Real.cos_pi_div_two]
  unfold direction
  simp only [this, zero_mul]

/-- **C96 refuted** the figure does not show the configuration it is asked for: with half the
threshold the pole is not covered by the crater, the figure shows its age there all the same. -/
theorem C96_figure_refuted : ∃ (cfg : EjCfg) (df : List DatedCrater) (age : Arr2 ℝ) (cum : Arr2 Flt) (ages : Arr2 ℝ),
    gridPlots cfg 4.25e9 df df [0] [0] = .ok (age, cum) ∧
    getAgeGrid cfg 4.25e9 df [0] [0] = .ok ages ∧ ages.entry 0 0 = 4250000000 ∧ age.entry 0 0 = 3 := by
  have hpi := pi_gt_three
  have hpi4 := pi_lt_four
  obtain ⟨age, cum, ages0, h1, h2, h3, -⟩ := C96_figure_partial { EjCfg.default with ej_threshold := 2 } 4.25e9
    [equatorial] [equatorial] [0] [0] rfl (by
      intro k c hk
      cases k with
      | zero => simp at hk; rw [← hk]; rfl
      | succ k => simp at hk)
  obtain ⟨g0, e0, -, -, f0⟩ := C67_youngest_partial EjCfg.default 4.25e9 [equatorial] [equatorial] (List.Perm.refl _)
    (by simp) [0] [0] rfl
  obtain ⟨g1, e1, -, -, f1⟩ := C67_youngest_partial { EjCfg.default with ej_threshold := 2 } 4.25e9 [equatorial]
    [equatorial] (List.Perm.refl _) (by simp) [0] [0] rfl
  have hg0 : g0 = ages0 := by
    rw [h2] at e0; injection e0 with e0; exact e0.symm
  subst hg0
  have hrad : 0 < EjCfg.default.rad_moon := by norm_num [EjCfg.default]
  refine ⟨{ EjCfg.default with ej_threshold := 2 }, [equatorial], age, cum, g1, h1, e1, ?_, ?_⟩
  · rw [(f1 0 0 0 0 rfl rfl).1]
    · norm_num
    · rintro c hc ⟨lat, hl, hlt⟩
      rw [List.mem_singleton] at hc
      subst hc
      rw [map_centre { EjCfg.default with ej_threshold := 2 } hrad] at hl
      injection hl with hl
      rw [← hl, equatorial_dist] at hlt
      norm_num [equatorial, thresholdOf] at hlt
      linarith
  · have hc : ∃ c ∈ [equatorial], Spec.Covers EjCfg.default c 0 0 := by
      refine ⟨equatorial, by simp, -90, map_centre _ hrad, ?_⟩
      rw [equatorial_dist]
      norm_num [equatorial, thresholdOf, EjCfg.default]
      linarith
    obtain ⟨c, hm, -, he⟩ := (f0 0 0 0 0 rfl rfl).2.2 hc
    rw [List.mem_singleton] at hm
    subst hm
    have := h3 0 0
    rw [he] at this
    norm_num [equatorial] at this
    linarith

/-- A crater of 100 km diameter on the equator that covers everything within 100 radii: its ejecta
at the pole. -/
example : ∃ ages thick g, getGridOutputs { EjCfg.default with ej_threshold := 100 } 4.25e9
      [{ equatorial with rad := 50000 }] [{ equatorial with rad := 50000 }] [0] [0] = .ok (ages, thick) ∧
    thick[0]? = some g ∧
    g.entry 0 0 = .fin (0.14 * 50000 ^ (0.74 : ℝ) * (1737400 * (π / 2) / 50000) ^ (-3 : ℝ)) := by
  have hpi := pi_gt_three
  have hpi4 := pi_lt_four
  obtain ⟨ages, thick, h, -, -, hk⟩ := C96_thickness_partial { EjCfg.default with ej_threshold := 100 } 4.25e9
    [{ equatorial with rad := 50000 }] [{ equatorial with rad := 50000 }] [0] [0] rfl (by
      intro k c hk
      cases k with
      | zero => simp at hk; rw [← hk]; rfl
      | succ k => simp at hk)
  obtain ⟨g, hg, -, -, ht⟩ := hk 0 _ rfl
  refine ⟨ages, thick, g, h, hg, ?_⟩
  have hb : Spec.BlanketAt { EjCfg.default with ej_threshold := 100 } ({ equatorial with rad := 50000 } : DatedCrater).toCrater
      0 0 (1737400 * (π / 2)) := by
    refine ⟨-90, map_centre { EjCfg.default with ej_threshold := 100 } (by norm_num [EjCfg.default]),
      (equatorial_dist _).symm, ?_, ?_⟩
    · norm_num; linarith
    · norm_num [thresholdOf, equatorial]; linarith
  have := ((ht 0 0 0 0 rfl rfl).2 _ hb).2 (by norm_num) (by norm_num [EjCfg.default])
  exact this.2 (by norm_num [EjCfg.default]) (by norm_num [EjCfg.default])

end MoonPIES
