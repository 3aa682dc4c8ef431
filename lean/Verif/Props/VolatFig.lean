import Verif.Lemmas.VolatFig
import Verif.Model.Shipped

/-!
# C103: the figure of volatilized fractions
-/

namespace MoonPIES

/-- Spec: a crater (`basin = false`) or a basin leaves ejecta mixed at ratio `x` in a cold trap, when
ejecta at distance `d` is mixed at ratio `g d`. -/
def Spec.MixedInTrap (cfg : EjCfg) (df : List Crater) (traps : List String) (g : ℝ → ℝ) (basin : Bool)
    (x : ℝ) : Prop :=
  ∃ row ∈ df, row.isbasin = basin ∧ ∃ t ∈ df, t.cname ∈ traps ∧ row.cname ≠ t.cname ∧
    ∃ p, t.psr = some p ∧ row.rad < surfaceDist row p.1 p.2 ∧
      (thresholdOf cfg row < 0 ∨ surfaceDist row p.1 p.2 < thresholdOf cfg row * row.rad) ∧
      x = g (surfaceDist row p.1 p.2)

open Spec

/-- The steps of a figure that is drawn. -/
theorem volatFigure_inv {ej : EjCfg} {bs : BsedCfg ℝ} {mr : Option ℝ → Option ℝ}
    {mean std : MeltTable ℝ} {df : List Crater} {traps : List String} {F : VolatFig}
    (h : volatFigure ej bs mr mean std df traps = .ok F) :
    ∃ dm ds e dists, insertHundred mean = .ok dm ∧ insertHundred std = .ok ds ∧
      volatExtent dm = .ok e ∧ coldtrapDists ej df traps = .ok dists ∧
      volatMark bs.polar_ejecta_temp_init (((df.zip (dists.map fun r => r.map mr)).filter
        fun p => p.1.isbasin = false).map (·.2)) = .ok F.crater ∧
      volatMark bs.basin_ejecta_temp_init_cold (((df.zip (dists.map fun r => r.map mr)).filter
        fun p => p.1.isbasin = true).map (·.2)) = .ok F.basinCold ∧
      volatMark bs.basin_ejecta_temp_init_warm (((df.zip (dists.map fun r => r.map mr)).filter
        fun p => p.1.isbasin = true).map (·.2)) = .ok F.basinWarm ∧
      F.mean = imshowAt (dm.rows.map fun r => r.2.map (· * 100)) dm.temps.length e ∧
      F.std = imshowAt (ds.rows.map fun r => r.2.map (· * 100)) ds.temps.length e := by
  unfold volatFigure at h
  obtain ⟨dm, h1, h⟩ := bind_ok_inv h
  obtain ⟨ds, h2, h⟩ := bind_ok_inv h
  obtain ⟨e, h3, h⟩ := bind_ok_inv h
  obtain ⟨dists, h4, h⟩ := bind_ok_inv h
  obtain ⟨c, h5, h⟩ := bind_ok_inv h
  obtain ⟨b, h6, h⟩ := bind_ok_inv h
  obtain ⟨w, h7, h⟩ := bind_ok_inv h
  injection h with h
  subst h
  exact ⟨dm, ds, e, dists, h1, h2, h3, h4, h5, h6, h7, rfl, rfl⟩

/-- **C103** the cell of each tabulated value lies to the left of its temperature and below its ejecta
fraction, in both images; between 100 and 105 K nothing is volatilized. -/
theorem C103_cells (ej : EjCfg) (bs : BsedCfg ℝ) (mr : Option ℝ → Option ℝ) (mean std : MeltTable ℝ)
    (df : List Crater) (traps : List String) (F : VolatFig) (ε : ℝ)
    (h : volatFigure ej bs mr mean std df traps = .ok F)
    (g : ScriptGrid ε mean) (g' : ScriptGrid ε std) (t : MeltTable ℝ) (shown : ℝ → ℝ → Option ℝ)
    (ht : (t = mean ∧ shown = F.mean) ∨ (t = std ∧ shown = F.std))
    (i : Nat) (r : ℝ × List ℝ) (hr : t.rows[i]? = some r) (x y : ℝ)
    (hy : 100 - 2.5 * (i : ℝ) - 2.5 < y) (hy' : y < 100 - 2.5 * i) :
    (∀ (j : Nat) T f, t.temps[j]? = some T → r.2[j]? = some f → T - 5 < x → x < T →
      shown x y = some (100 * f)) ∧
    (100 < x → x < 105 → shown x y = some 0) := by
  obtain ⟨dm, ds, e, dists, h1, h2, h3, -, -, -, -, h4, h5⟩ := volatFigure_inv h
  have he := volatExtent_script g h1 h3
  subst he
  obtain ⟨gt, d, hd, hs⟩ : ScriptGrid ε t ∧ ∃ d, insertHundred t = .ok d ∧ shown =
      imshowAt (d.rows.map fun r => r.2.map (· * 100)) d.temps.length ⟨100, 510, 0, 100⟩ := by
    rcases ht with ⟨rfl, rfl⟩ | ⟨rfl, rfl⟩
    · exact ⟨g, dm, h1, h4⟩
    · exact ⟨g', ds, h2, h5⟩
  have hi : i < 40 := by
    have := (List.getElem?_eq_some_iff.1 hr).1
    rw [gt.count] at this; exact this
  have hi0 : (0 : ℝ) ≤ i := Nat.cast_nonneg i
  constructor
  · intro j T f hT hf hx hx'
    rw [gt.temps, List.getElem?_map] at hT
    obtain ⟨k, hk, hT⟩ := Option.map_eq_some_iff.1 hT
    obtain ⟨hj, hk⟩ := List.getElem?_eq_some_iff.1 hk
    rw [List.length_range] at hj
    rw [List.getElem_range] at hk
    subst hk
    obtain ⟨r', hr', f', hf', hv⟩ := imshow_script gt hd i (j + 1) hi (by omega) x y
      (by push_cast; linarith) (by push_cast; linarith) (by linarith) hy'.le
      (by have : (0 : ℝ) ≤ j := Nat.cast_nonneg j
          linarith) (by linarith)
    rw [hr] at hr'
    injection hr' with hr'
    subst hr'
    rw [List.getElem?_cons_succ, hf] at hf'
    injection hf' with hf'
    rw [hs, hv, ← hf', mul_comm]
  · intro hx hx'
    obtain ⟨r', hr', f, hf, hv⟩ := imshow_script gt hd i 0 hi (by norm_num) x y
      (by norm_num; linarith) (by norm_num; linarith) (by linarith) hy'.le hx (by linarith)
    rw [hs, hv]
    cases hf
    simp

/-- **C103** the full claim would be that each point shows the value of the nearest tabulated point.
Proved for the quarter of each cell next to its tabulated point; missing: the rest, see
`C103_nearest_refuted`. -/
theorem C103_nearest_partial (ej : EjCfg) (bs : BsedCfg ℝ) (mr : Option ℝ → Option ℝ)
    (mean std : MeltTable ℝ) (df : List Crater) (traps : List String) (F : VolatFig) (ε : ℝ)
    (h : volatFigure ej bs mr mean std df traps = .ok F)
    (g : ScriptGrid ε mean) (g' : ScriptGrid ε std) (t : MeltTable ℝ) (shown : ℝ → ℝ → Option ℝ)
    (ht : (t = mean ∧ shown = F.mean) ∨ (t = std ∧ shown = F.std))
    (i j : Nat) (hi : i < 40) (hj : j < 81) (x y : ℝ)
    (hx : 107.5 + 5 * (j : ℝ) < x) (hx' : x < 110 + 5 * j)
    (hy : 98.75 - 2.5 * (i : ℝ) + ε < y) (hy' : y < 100 - 2.5 * i) :
    ∃ v, shown x y = some v ∧ NearestValue t x y v := by
  have gt : ScriptGrid ε t := by rcases ht with ⟨rfl, -⟩ | ⟨rfl, -⟩ <;> assumption
  have hr : t.rows[i]? = some (t.rows[i]'(by rw [gt.count]; exact hi)) := List.getElem?_eq_getElem _
  obtain ⟨r, hr'⟩ : ∃ r, r = t.rows[i]'(by rw [gt.count]; exact hi) := ⟨_, rfl⟩
  rw [← hr'] at hr
  have hrm := List.mem_of_getElem? hr
  have hT : ∀ k : Nat, t.temps[k]? = if k < 81 then some (110 + 5 * (k : ℝ)) else none := by
    intro k
    rw [gt.temps, List.getElem?_map]
    split_ifs with hk
    · rw [List.getElem?_range hk]; rfl
    · rw [List.getElem?_eq_none (by simpa using hk)]; rfl
  have hf : r.2[j]? = some (r.2[j]'(by rw [gt.full r hrm]; exact hj)) := List.getElem?_eq_getElem _
  have hε0 : 0 ≤ ε := (abs_nonneg _).trans (gt.pct i r hr)
  have hj0 : (0 : ℝ) ≤ j := Nat.cast_nonneg j
  refine ⟨_, (C103_cells ej bs mr mean std df traps F ε h g g' t shown ht i r hr x y (by linarith)
    hy').1 j _ _ (by rw [hT, if_pos hj]) hf (by linarith) (by linarith), 110 + 5 * j,
    100 / (1 + r.1), ⟨r, hrm, ?_, Or.inr ⟨j, by rw [hT, if_pos hj], _, hf, rfl⟩⟩, ?_⟩
  · have := gt.ratio r hrm
    field_simp
  · rintro T' p' v' ⟨q, hq, hp, hv⟩
    constructor
    · rw [abs_of_pos (by linarith : (0 : ℝ) < 110 + 5 * j - x)]
      have hT' : T' ≤ 105 + 5 * (j : ℝ) ∨ 110 + 5 * (j : ℝ) ≤ T' := by
        rcases hv with ⟨rfl, -⟩ | ⟨k, hk, -⟩
        · left; linarith
        · rw [hT] at hk
          split_ifs at hk
          injection hk with hk
          rcases lt_or_ge k j with hkj | hkj
          · left
            have : ((k : ℝ)) + 1 ≤ j := by exact_mod_cast hkj
            linarith
          · right
            have : ((j : ℝ)) ≤ k := by exact_mod_cast hkj
            linarith
      rcases hT' with h | h
      · rw [abs_of_neg (by linarith)]; linarith
      · rw [abs_of_pos (by linarith)]; linarith
    · obtain ⟨k, hk⟩ := List.mem_iff_getElem?.1 hq
      have hq0 := gt.ratio q hq
      have ep : p' = 100 / (1 + q.1) := by
        rw [eq_div_iff (by linarith)]; exact hp
      have a1 := abs_le.1 (gt.pct i r hr)
      have a2 := abs_le.1 (gt.pct k q hk)
      rw [← ep] at a2
      rcases lt_trichotomy k i with hki | hki | hki
      · have : ((k : ℝ)) + 1 ≤ i := by exact_mod_cast hki
        rw [abs_of_pos (by linarith : 0 < p' - y), abs_le]
        constructor <;> linarith
      · subst hki
        rw [hr] at hk
        injection hk with hk
        rw [ep, hk]
      · have : ((i : ℝ)) + 1 ≤ k := by exact_mod_cast hki
        rw [abs_of_neg (by linarith : p' - y < 0), abs_le]
        constructor <;> linarith

/-- A mark reaches from the least to the greatest ejecta fraction. -/
theorem volatMark_spec {temp : ℝ} {mrs : List (List (Option ℝ))} {m : VolatMark}
    (hp : ∀ r ∈ mrs, ∀ x, some x ∈ r → 0 ≤ x) (h : volatMark temp mrs = .ok m) :
    m.temp = temp ∧ PctRange (fun x => ∃ r ∈ mrs, some x ∈ r) m.low m.high := by
  unfold volatMark at h
  obtain ⟨pct, h1, h⟩ := bind_ok_inv h
  obtain ⟨lo, h2, h⟩ := bind_ok_inv h
  obtain ⟨hi, h3, h⟩ := bind_ok_inv h
  injection h with h
  subst h
  have hmem : ∀ x, x ∈ mrs.flatten.filterMap id ↔ ∃ r ∈ mrs, some x ∈ r := by
    intro x
    simp only [List.mem_filterMap, List.mem_flatten, id]
    constructor
    · rintro ⟨a, ⟨l, hl, ha⟩, rfl⟩; exact ⟨l, hl, ha⟩
    · rintro ⟨l, hl, ha⟩; exact ⟨_, ⟨l, hl, ha⟩, rfl⟩
  rw [mapM_eq_map _ _ (fun x => 100 / (1 + x)) (by
    intro a ha
    obtain ⟨r, hr, hx⟩ := (hmem a).1 ha
    exact ejectaPct_pos (hp r hr a hx))] at h1
  injection h1 with h1
  subst h1
  obtain ⟨a1, a2⟩ := arrMin_ok h2
  obtain ⟨b1, b2⟩ := arrMax_ok h3
  refine ⟨rfl, ?_, ?_, ?_⟩
  · intro x hx
    have := List.mem_map_of_mem (f := fun x : ℝ => 100 / (1 + x)) ((hmem x).2 hx)
    exact ⟨a2 _ this, b2 _ this⟩
  · obtain ⟨x, hx, e⟩ := List.mem_map.1 a1
    exact ⟨x, (hmem x).1 hx, e.symm⟩
  · obtain ⟨x, hx, e⟩ := List.mem_map.1 b1
    exact ⟨x, (hmem x).1 hx, e.symm⟩

/-- **C103** the marks: at the configured temperatures, from the least to the greatest fraction of
ejecta in the mixture that craters, or basins, leave in the cold traps. -/
theorem C103_marks (ej : EjCfg) (bs : BsedCfg ℝ) (g : ℝ → ℝ) (mean std : MeltTable ℝ)
    (df : List Crater) (traps : List String) (F : VolatFig)
    (h : volatFigure ej bs (fun d => d.map g) mean std df traps = .ok F)
    (hg : ∀ d, 0 < d → 0 ≤ g d) (hrad : ∀ c ∈ df, 0 < c.rad)
    (huniq : ∀ trap ∈ traps, ∃ t, df.filter (fun c => c.cname = trap) = [t]) :
    F.crater.temp = bs.polar_ejecta_temp_init ∧
    PctRange (MixedInTrap ej df traps g false) F.crater.low F.crater.high ∧
    F.basinCold.temp = bs.basin_ejecta_temp_init_cold ∧
    F.basinWarm.temp = bs.basin_ejecta_temp_init_warm ∧
    PctRange (MixedInTrap ej df traps g true) F.basinCold.low F.basinCold.high ∧
    PctRange (MixedInTrap ej df traps g true) F.basinWarm.low F.basinWarm.high := by
  obtain ⟨-, -, -, m, -, -, -, h1, h2, h3, h4, -⟩ := volatFigure_inv h
  obtain ⟨m', hm, hl, hv⟩ := C37_coldtrap_dists ej df traps hrad huniq
  rw [hm] at h1
  injection h1 with h1
  subst h1
  have key : ∀ b x, (∃ r ∈ ((df.zip (m'.map fun r => r.map fun d => d.map g)).filter
      fun p => p.1.isbasin = b).map (·.2), some x ∈ r) ↔ MixedInTrap ej df traps g b x := by
    intro b x
    constructor
    · rintro ⟨r, hr, hx⟩
      obtain ⟨⟨row, r'⟩, hp, rfl⟩ := List.mem_map.1 hr
      obtain ⟨hp, hb⟩ := List.mem_filter.1 hp
      obtain ⟨i, hi⟩ := List.mem_iff_getElem?.1 hp
      obtain ⟨e1, e2⟩ := List.getElem?_zip_eq_some.1 hi
      rw [List.getElem?_map] at e2
      obtain ⟨q, hq, e2⟩ := Option.map_eq_some_iff.1 e2
      simp only at hx e2
      rw [← e2] at hx
      obtain ⟨d, hd, hdx⟩ := List.mem_map.1 hx
      obtain ⟨d, rfl, hdx⟩ := Option.map_eq_some_iff.1 hdx
      obtain ⟨j, hj⟩ := List.mem_iff_getElem?.1 hd
      have hjt : j < traps.length := by
        rcases Nat.lt_or_ge j traps.length with h | h
        · exact h
        · exfalso
          by_cases hc : traps = []
          · subst hc
            have := mapM_ok_inv _ _ _ hm
            obtain ⟨q', hq', hqq⟩ := this.2 i row e1
            rw [hq] at hq'
            injection hq' with hq'
            subst hq'
            cases hqq
            simp at hj
          · obtain ⟨q', v, hq', hlen, -⟩ := hv i row 0 _ e1
              (List.getElem?_eq_getElem (List.length_pos_iff.2 hc))
            rw [hq] at hq'
            injection hq' with hq'
            subst hq'
            rw [List.getElem?_eq_none (by omega)] at hj
            cases hj
      obtain ⟨q', v, hq', -, hvj, hiff⟩ := hv i row j _ e1 (List.getElem?_eq_getElem hjt)
      rw [hq] at hq'
      injection hq' with hq'
      subst hq'
      rw [hj] at hvj
      injection hvj with hvj
      obtain ⟨t, ht⟩ := huniq _ (List.getElem_mem hjt)
      have htm : t ∈ df.filter (fun c => c.cname = traps[j]) := by rw [ht]; simp
      obtain ⟨htm, htn⟩ := List.mem_filter.1 htm
      have htn := of_decide_eq_true htn
      obtain ⟨c1, ⟨p, c2, c3⟩, c4, c5⟩ := (hiff t htm htn d).1 hvj.symm
      refine ⟨row, List.mem_of_getElem? e1, of_decide_eq_true hb, t, htm, ?_, ?_, p, c2, ?_, ?_, ?_⟩
      · rw [htn]; exact List.getElem_mem hjt
      · rw [htn]; exact c1
      · rw [← c3]; exact c4
      · rw [← c3]; exact c5
      · rw [← c3]; injection hdx with hdx; exact hdx.symm
    · rintro ⟨row, hrow, hb, t, ht, htt, hne, p, hp, hr, hthr, rfl⟩
      obtain ⟨i, hi⟩ := List.mem_iff_getElem?.1 hrow
      obtain ⟨j, hj⟩ := List.mem_iff_getElem?.1 htt
      obtain ⟨q, v, hq, -, hvj, hiff⟩ := hv i row j _ hi hj
      have hvd := (hiff t ht rfl _).2 ⟨hne, ⟨p, hp, rfl⟩, hr, hthr⟩
      refine ⟨q.map fun d => d.map g, List.mem_map.2 ⟨(row, q.map fun d => d.map g),
        List.mem_filter.2 ⟨List.mem_iff_getElem?.2 ⟨i, ?_⟩, decide_eq_true hb⟩, rfl⟩,
        List.mem_map.2 ⟨v, List.mem_of_getElem? hvj, ?_⟩⟩
      · rw [List.getElem?_zip_eq_some]
        exact ⟨hi, by rw [List.getElem?_map, hq]; rfl⟩
      · rw [hvd]; rfl
  have pos : ∀ b, ∀ r ∈ ((df.zip (m'.map fun r => r.map fun d => d.map g)).filter
      fun p => p.1.isbasin = b).map (·.2), ∀ x, some x ∈ r → 0 ≤ x := by
    intro b r hr x hx
    obtain ⟨row, hrow, -, t, -, -, -, p, -, hd, -, rfl⟩ := (key b x).1 ⟨r, hr, hx⟩
    exact hg _ ((hrad row hrow).trans hd)
  obtain ⟨a1, a2⟩ := volatMark_spec (pos false) h2
  obtain ⟨b1, b2⟩ := volatMark_spec (pos true) h3
  obtain ⟨c1, c2⟩ := volatMark_spec (pos true) h4
  simp only [key] at a2 b2 c2
  exact ⟨a1, a2, b1, c1, b2, c2⟩

/-- The shipped table has the grid of the script. -/
theorem shipped_grid : ScriptGrid 1e-3 shippedMelt := by
  have hrow : ∀ (i : Nat) r, shippedMelt.rows[i]? = some r → ∃ q, meltFile[i]? = some q ∧
      r = ((q.1 : ℝ) / 10 ^ 10, q.2.map (fun v : Nat => (v : ℝ) / 10 ^ 10)) := by
    intro i r hr
    unfold shippedMelt at hr
    rw [List.getElem?_map] at hr
    obtain ⟨q, hq, rfl⟩ := Option.map_eq_some_iff.1 hr
    exact ⟨q, hq, rfl⟩
  refine ⟨?_, ?_, ?_, ?_, ?_, ?_⟩
  · have : meltTemps = (List.range 81).map fun j => 110 + 5 * j := by decide +kernel
    unfold shippedMelt
    simp only [this, List.map_map]
    apply List.map_congr_left
    intro j _
    simp
  · unfold shippedMelt
    rw [List.length_map]
    decide +kernel
  · intro r hr
    obtain ⟨i, hi⟩ := List.mem_iff_getElem?.1 hr
    obtain ⟨q, hq, rfl⟩ := hrow i r hi
    have : ∀ q ∈ meltFile, q.2.length = 81 := by decide +kernel
    simp only [List.length_map]
    exact this q (List.mem_of_getElem? hq)
  · intro r hr
    obtain ⟨i, hi⟩ := List.mem_iff_getElem?.1 hr
    obtain ⟨q, hq, rfl⟩ := hrow i r hi
    positivity
  · have : (meltFile[0]?.map (·.1)) = some 0 := by decide +kernel
    obtain ⟨q, hq, h0⟩ := Option.map_eq_some_iff.1 this
    refine ⟨((q.1 : ℝ) / 10 ^ 10, q.2.map (fun v : Nat => (v : ℝ) / 10 ^ 10)), ?_, ?_⟩
    · unfold shippedMelt
      rw [List.getElem?_map, hq]
      rfl
    · simp [h0]
  · intro i r hr
    obtain ⟨q, hq, rfl⟩ := hrow i r hr
    have hall : ∀ p ∈ meltFile.zipIdx, 1000 * |2 * 10 ^ 12 - (200 - 5 * (p.2 : Int)) *
        (10 ^ 10 + (p.1.1 : Int))| ≤ 2 * (10 ^ 10 + (p.1.1 : Int)) := by decide +kernel
    have h := hall (q, i) (List.mem_iff_getElem?.2 ⟨i, by rw [List.getElem?_zipIdx, hq]; simp⟩)
    simp only at h
    have h' : 1000 * |(2 : ℝ) * 10 ^ 12 - (200 - 5 * (i : ℝ)) * (10 ^ 10 + (q.1 : ℝ))| ≤
        2 * (10 ^ 10 + (q.1 : ℝ)) := by exact_mod_cast h
    have hq0 : (0 : ℝ) < 10 ^ 10 + (q.1 : ℝ) := by positivity
    have e : 100 / (1 + (q.1 : ℝ) / 10 ^ 10) - (100 - 2.5 * (i : ℝ)) =
        (2 * 10 ^ 12 - (200 - 5 * (i : ℝ)) * (10 ^ 10 + (q.1 : ℝ))) / (2 * (10 ^ 10 + (q.1 : ℝ))) := by
      field_simp
      ring
    simp only
    rw [e, abs_div, abs_of_pos (by positivity : 0 < 2 * (10 ^ 10 + (q.1 : ℝ))),
      div_le_iff₀ (by positivity)]
    norm_num at h' ⊢
    linarith

/-- A basin at the pole, a crater there and a crater on the equator with a cold trap. -/
noncomputable def poleBasin : Crater := { poleCrater with cname := "C", isbasin := true }

/-- Settings without a limit of the ejecta blanket. -/
noncomputable def noLimit : EjCfg := { EjCfg.default with ej_threshold := -1, basin_ej_threshold := -1 }

theorem noLimit_dists : coldtrapDists noLimit [poleCrater, equatorTrap, poleBasin] ["B"] =
    .ok [[some (1737400 * (Real.pi / 2))], [none], [some (1737400 * (Real.pi / 2))]] := by
  have hu : [poleCrater, equatorTrap, poleBasin].filter (fun c => c.cname = "B") = [equatorTrap] := by
    simp [poleCrater, equatorTrap, poleBasin]
  have hpi := Real.pi_gt_three
  have h1 : coldtrapDist noLimit [poleCrater, equatorTrap, poleBasin] poleCrater "B" =
      .ok (some (1737400 * (Real.pi / 2))) := by
    refine (coldtrapDist_eq _ _ _ _ _ hu (by norm_num [poleCrater]) _).2
      ⟨by simp [poleCrater], ⟨(0, 0), rfl, pole_equator.symm⟩, ?_,
        Or.inl (by norm_num [thresholdOf, poleCrater, noLimit])⟩
    norm_num [poleCrater]; linarith
  have h2 : coldtrapDist noLimit [poleCrater, equatorTrap, poleBasin] poleBasin "B" =
      .ok (some (1737400 * (Real.pi / 2))) := by
    refine (coldtrapDist_eq _ _ _ _ _ hu (by norm_num [poleCrater, poleBasin]) _).2
      ⟨by simp [poleCrater, poleBasin], ⟨(0, 0), rfl, pole_equator.symm⟩, ?_,
        Or.inl (by norm_num [thresholdOf, poleCrater, poleBasin, noLimit])⟩
    norm_num [poleCrater, poleBasin]; linarith
  have h3 : coldtrapDist noLimit [poleCrater, equatorTrap, poleBasin] equatorTrap "B" = .ok none := by
    unfold coldtrapDist
    simp only []
    rw [if_pos (show equatorTrap.cname = "B" from rfl)]
  unfold coldtrapDists
  simp only [List.mapM_cons, List.mapM_nil, h1, h2, h3]
  rfl

/-- The figure is drawn for the shipped table, with the mixing ratios of Oberbeck. -/
theorem volat_drawn (bs : BsedCfg ℝ) : ∃ F, volatFigure noLimit bs
    (fun d => d.map fun d => 0.0183 * (d * 1e-3) ^ (0.87 : ℝ)) shippedMelt shippedMelt
    [poleCrater, equatorTrap, poleBasin] ["B"] = .ok F := by
  have h100 : (100 : ℝ) ∉ shippedMelt.temps := by
    rw [shipped_grid.temps]
    intro h
    obtain ⟨j, -, h⟩ := List.mem_map.1 h
    have : (0 : ℝ) ≤ j := Nat.cast_nonneg j
    linarith
  have hd : insertHundred shippedMelt = .ok ⟨100 :: shippedMelt.temps,
      shippedMelt.rows.map fun r => (r.1, 0 :: r.2)⟩ := by
    unfold insertHundred
    rw [if_neg h100]
  have hx : ∃ e, volatExtent ⟨100 :: shippedMelt.temps,
      shippedMelt.rows.map fun r => (r.1, 0 :: r.2)⟩ = .ok e := by
    unfold volatExtent
    rw [mapM_eq_map _ _ (fun r : ℝ × List ℝ => 100 / (1 + r.1)) (by
      intro a ha
      obtain ⟨b, hb, rfl⟩ := List.mem_map.1 ha
      exact ejectaPct_pos (shipped_grid.ratio b hb))]
    have : (shippedMelt.rows.map fun r => (r.1, (0 : ℝ) :: r.2)) ≠ [] := by
      intro h
      have h := congrArg List.length h
      rw [List.length_map, shipped_grid.count] at h
      simp at h
    cases h : (shippedMelt.rows.map fun r => (r.1, (0 : ℝ) :: r.2)) with
    | nil => exact absurd h this
    | cons a l => exact ⟨_, rfl⟩
  obtain ⟨e, he⟩ := hx
  have hm : ∀ T x l, 0 ≤ x → l = [] ∨ l = [[none]] → ∃ m, volatMark T ([some x] :: l) = .ok m := by
    intro T x l hx hl
    refine ⟨⟨T, 100 / (1 + x), 100 / (1 + x)⟩, ?_⟩
    have : ([some x] :: l).flatten.filterMap id = [x] := by
      rcases hl with rfl | rfl <;> rfl
    unfold volatMark
    simp only [this, List.mapM_cons, List.mapM_nil, ejectaPct_pos hx]
    rfl
  have hg : (0 : ℝ) ≤ 0.0183 * (1737400 * (Real.pi / 2) * 1e-3) ^ (0.87 : ℝ) := by positivity
  obtain ⟨m1, hm1⟩ := hm bs.polar_ejecta_temp_init _ _ hg (Or.inr rfl)
  obtain ⟨m2, hm2⟩ := hm bs.basin_ejecta_temp_init_cold _ _ hg (Or.inl rfl)
  obtain ⟨m3, hm3⟩ := hm bs.basin_ejecta_temp_init_warm _ _ hg (Or.inl rfl)
  unfold volatFigure
  simp only [hd, he, noLimit_dists, bind, Except.bind]
  have f0 : poleCrater.isbasin = false := rfl
  have f1 : equatorTrap.isbasin = false := rfl
  have f2 : poleBasin.isbasin = true := rfl
  simp only [List.map_cons, List.map_nil, Option.map_some, Option.map_none, List.zip_cons_cons,
    List.zip_nil_left, List.filter_cons, List.filter_nil, f0, f1, f2, decide_true, decide_false,
    if_true, if_false, Bool.false_eq_true, Bool.true_eq_false, hm1, hm2, hm3]
  exact ⟨_, rfl⟩

/-- **C103** the colour at 112 K and 97.4 % ejecta is that of 115 K, 67.6 % volatilized, although
the nearest tabulated point, at 110 K, has none volatilized. -/
theorem C103_nearest_refuted (bs : BsedCfg ℝ) : ∃ F, volatFigure noLimit bs
    (fun d => d.map fun d => 0.0183 * (d * 1e-3) ^ (0.87 : ℝ)) shippedMelt shippedMelt
    [poleCrater, equatorTrap, poleBasin] ["B"] = .ok F ∧
    F.mean 112 97.4 = some 67.6 ∧ ∀ v, NearestValue shippedMelt 112 97.4 v → v = 0 := by
  obtain ⟨F, hF⟩ := volat_drawn bs
  have g := shipped_grid
  have hq : (meltFile[1]?.map fun q => (q.2[0]?, q.2[1]?)) = some (some 0, some 6760000000) := by
    decide +kernel
  obtain ⟨q, hq, e⟩ := Option.map_eq_some_iff.1 hq
  rw [Prod.mk.injEq] at e
  obtain ⟨r, hr, h0, h1⟩ : ∃ r, shippedMelt.rows[1]? = some r ∧ r.2[0]? = some 0 ∧
      r.2[1]? = some (0.676 : ℝ) := by
    refine ⟨((q.1 : ℝ) / 10 ^ 10, q.2.map (fun v : Nat => (v : ℝ) / 10 ^ 10)), ?_, ?_, ?_⟩
    · unfold shippedMelt
      rw [List.getElem?_map, hq]
      rfl
    · rw [List.getElem?_map, e.1]; simp
    · rw [List.getElem?_map, e.2]; norm_num
  have hT : ∀ k : Nat, shippedMelt.temps[k]? = if k < 81 then some (110 + 5 * (k : ℝ)) else none := by
    intro k
    rw [g.temps, List.getElem?_map]
    split_ifs with hk
    · rw [List.getElem?_range hk]; rfl
    · rw [List.getElem?_eq_none (by simpa using hk)]; rfl
  refine ⟨F, hF, ?_, ?_⟩
  · rw [(C103_cells _ _ _ _ _ _ _ F _ hF g g shippedMelt F.mean (Or.inl ⟨rfl, rfl⟩) 1 r hr 112 97.4
      (by norm_num) (by norm_num)).1 1 115 0.676 (by rw [hT]; norm_num) h1 (by norm_num) (by norm_num)]
    norm_num
  · rintro v ⟨T, p, ⟨r', hr', hp, hv⟩, hn⟩
    have hrm := List.mem_of_getElem? hr
    have hr0 := g.ratio r hrm
    obtain ⟨n1, n2⟩ := hn 110 (100 / (1 + r.1)) 0 ⟨r, hrm, by field_simp, Or.inr
      ⟨0, by rw [hT]; norm_num, 0, h0, by norm_num⟩⟩
    norm_num at n1
    have a1 := abs_le.1 (g.pct 1 r hr)
    obtain ⟨i, hi⟩ := List.mem_iff_getElem?.1 hr'
    have a2 := abs_le.1 (g.pct i r' hi)
    have hr0' := g.ratio r' hr'
    have ep : p = 100 / (1 + r'.1) := by
      rw [eq_div_iff (by linarith)]; exact hp
    rw [← ep] at a2
    rw [abs_of_pos (by norm_num at a1 ⊢; linarith : 0 < 100 / (1 + r.1) - 97.4)] at n2
    have b := abs_le.1 n2
    norm_num at a1 a2 b
    have hi1 : i = 1 := by
      rcases Nat.lt_trichotomy i 1 with h | h | h
      · have : (i : ℝ) = 0 := by exact_mod_cast (by omega : i = 0)
        rw [this] at a2
        linarith
      · exact h
      · have : (2 : ℝ) ≤ i := by exact_mod_cast h
        linarith
    subst hi1
    rw [hr] at hi
    injection hi with hi
    subst hi
    rcases hv with ⟨-, hv⟩ | ⟨k, hk, f, hf, hv⟩
    · exact hv
    · rw [hT] at hk
      split_ifs at hk
      injection hk with hk
      have hk0 : k = 0 := by
        rcases Nat.eq_zero_or_pos k with h | h
        · exact h
        · have : (1 : ℝ) ≤ k := by exact_mod_cast h
          have := abs_le.1 n1
          linarith
      subst hk0
      rw [h0] at hf
      injection hf with hf
      rw [hv, ← hf]; norm_num

/-- The figure of the shipped table: the hypotheses of the theorems hold together, and the range of the
crater mark is not empty. -/
example (bs : BsedCfg ℝ) : ∃ F, volatFigure noLimit bs
    (fun d => d.map fun d => 0.0183 * (d * 1e-3) ^ (0.87 : ℝ)) shippedMelt shippedMelt
    [poleCrater, equatorTrap, poleBasin] ["B"] = .ok F ∧ ScriptGrid 1e-3 shippedMelt ∧
    PctRange (MixedInTrap noLimit [poleCrater, equatorTrap, poleBasin] ["B"]
      (fun d => 0.0183 * (d * 1e-3) ^ (0.87 : ℝ)) false) F.crater.low F.crater.high := by
  obtain ⟨F, hF⟩ := volat_drawn bs
  refine ⟨F, hF, shipped_grid, (C103_marks _ _ _ _ _ _ _ F hF (fun d hd => by positivity) ?_ ?_).2.1⟩
  · intro c hc
    simp only [List.mem_cons, List.not_mem_nil, or_false] at hc
    rcases hc with rfl | rfl | rfl <;> norm_num [poleCrater, equatorTrap, poleBasin]
  · intro t ht
    rw [List.mem_singleton] at ht
    subst ht
    exact ⟨equatorTrap, by simp [poleCrater, equatorTrap, poleBasin]⟩

end MoonPIES
