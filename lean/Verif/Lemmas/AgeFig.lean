import Verif.Model.AgeFig
import Verif.Spec.AgeFig
import Verif.Lemmas.RngArg

/-!
# Lemmas for the figure of random crater ages
-/

namespace MoonPIES

open Spec

variable {σ : Type}

theorem ageBins_get (k : Nat) (hk : k < 261) : ageBins[k]? = some ((159.5 + k) / 100 : ℝ) := by
  unfold ageBins
  rw [List.getElem?_map, List.getElem?_range hk]
  rfl

theorem ageBins_length : ageBins.length = 261 := by simp [ageBins]

/-- Ages in steps of 10 million years, each in its own bin. -/
theorem ageHist_of (ms : List Int) : AgeHist ms (npHist ageBins (ms.map fun m : Int => (m : ℝ) / 100)) := by
  have hl : (npHist ageBins (ms.map fun m : Int => (m : ℝ) / 100)).length = 260 := by
    simp [npHist, ageBins]
  refine ⟨hl, ?_⟩
  intro k hk
  unfold npHist
  rw [List.getElem?_map, List.getElem?_zipIdx, List.getElem?_zipWith, ageBins_get k (by omega),
    List.getElem?_tail, ageBins_get (k + 1) (by omega)]
  simp only [Option.map_some, Option.some.injEq]
  unfold binCount
  rw [List.countP_map, List.count_eq_countP]
  apply List.countP_congr
  intro m _
  simp only [Function.comp, decide_eq_true_eq, beq_iff_eq]
  have e : ((160 + (k : Int) : Int) : ℝ) = 160 + k := by push_cast; ring
  constructor
  · rintro ⟨h1, h2⟩
    have h2' : (m : ℝ) / 100 ≤ (159.5 + ((k + 1 : Nat) : ℝ)) / 100 := by
      rcases h2 with h2 | ⟨-, h2⟩
      · exact h2.le
      · exact h2.le
    push_cast at h2'
    have a1 : (159 + k : ℝ) < m := by
      norm_num at h1; linarith
    have a2 : (m : ℝ) < 161 + k := by
      norm_num at h2'; linarith
    have b1 : 159 + (k : Int) < m := by exact_mod_cast a1
    have b2 : m < 161 + (k : Int) := by exact_mod_cast a2
    omega
  · rintro rfl
    rw [e]
    push_cast
    constructor
    · norm_num; linarith
    · left; norm_num; linarith

/-- Among rows with different names, the filter for one name finds its row. -/
theorem filter_name {α β : Type} [DecidableEq β] (f : α → β) : ∀ (l : List α), (l.map f).Nodup →
    ∀ r ∈ l, (l.filter fun x => f x = f r) = [r]
  | [], _, r, h => by simp at h
  | a :: l, hn, r, h => by
    rw [List.map_cons, List.nodup_cons] at hn
    rcases List.mem_cons.1 h with rfl | h
    · rw [List.filter_cons_of_pos (by simp)]
      congr 1
      rw [List.filter_eq_nil_iff]
      intro b hb
      have : f b ≠ f r := fun e => hn.1 (List.mem_map.2 ⟨b, hb, e⟩)
      simpa using this
    · have : f a ≠ f r := fun e => hn.1 (List.mem_map.2 ⟨r, h, e.symm⟩)
      rw [List.filter_cons_of_neg (by simpa using this)]
      exact filter_name f l hn.2 r h

/-- Ages looked up by name, whatever the order of the rows. -/
theorem agesByName_perm (sorted mid : CraterTable) (hp : sorted.Perm mid)
    (hn : (mid.map fun r => r.rest.crater.cname).Nodup) :
    agesByName sorted (mid.map fun r => r.rest.crater.cname) = .ok (mid.map fun r => r.age / 1e9) := by
  have h : ((mid.map fun r => r.rest.crater.cname).flatMap fun n =>
      (sorted.filter fun r => r.rest.crater.cname = n).map fun r => r.age / 1e9) =
      mid.map fun r => r.age / 1e9 := by
    rw [List.flatMap_map]
    have : ∀ r ∈ mid, ((sorted.filter fun x => x.rest.crater.cname = r.rest.crater.cname).map
        fun r => r.age / 1e9) = [r.age / 1e9] := by
      intro r hr
      have h1 := filter_name (fun r : CraterAge ℝ CraterCols => r.rest.crater.cname) mid hn r hr
      have h2 := hp.filter (fun x => decide (x.rest.crater.cname = r.rest.crater.cname))
      rw [h1] at h2
      rw [List.perm_singleton.1 h2]
      rfl
    rw [List.flatMap_congr this]
    exact List.map_eq_flatMap.symm
  unfold agesByName
  simp only [h, List.length_map, if_true]

theorem trunc_read {raw : RawCrater} (h : 0 < raw.age_low + raw.age_upp) (b : Bool) (icy : String) :
    (truncA (readRow b icy raw), truncB (readRow b icy raw)) = ageRange raw :=
  ageRange_eq _ _ _ h

/-- The new age in units of the timestep. -/
noncomputable def ageUnits (raw : RawCrater) (mean z : ℝ) : Int :=
  roundHalfEven ((mean * 1e9 + (raw.age_low + raw.age_upp) / 4 * 1e9 * z) / 1e7)

theorem ageUnits_drawn (raw : RawCrater) (mean z : ℝ) : AgeDrawn raw mean z (ageUnits raw mean z) := by
  unfold AgeDrawn ageUnits
  have h := roundHalfEven_close ((mean * 1e9 + (raw.age_low + raw.age_upp) / 4 * 1e9 * z) / 1e7)
  rw [abs_le] at h ⊢
  norm_num at h ⊢
  constructor <;> linarith [h.1, h.2]

/-- The row of a crater with another age. -/
noncomputable def rowAged (raw : RawCrater) (z : ℝ) : CraterAge ℝ CraterCols :=
  { readRow false "no" raw with age := (ageUnits raw raw.age z : ℝ) * 1e7 }

theorem sigOf_read (raw : RawCrater) :
    sigOf (readRow false "no" raw) = (raw.age_low + raw.age_upp) / 4 * 1e9 := by
  simp only [sigOf, readRow]; ring

theorem newAges_ok {β : Type} (ts : ℝ) (z : Nat → ℝ) : ∀ (rows : List (CraterAge ℝ β)) (k : Nat),
    (∀ r ∈ rows, 0 < sigOf r ∧ truncA r < truncB r) → ∃ mid, newAges ts z k rows = .ok mid
  | [], _, _ => ⟨_, rfl⟩
  | r :: rows, k, h => by
    obtain ⟨mid, hm⟩ := newAges_ok ts z rows (k + 1) (fun q hq => h q (by simp [hq]))
    obtain ⟨h1, h2⟩ := h r (by simp)
    unfold newAges newAge
    rw [if_neg (not_le.2 h1), if_pos h2, hm]
    exact ⟨_, rfl⟩

theorem craters_bounds {craters : List RawCrater} (hc : CratersOK craters) :
    ∀ r ∈ craters.map (readRow false "no"), 0 < sigOf r ∧ truncA r < truncB r := by
  intro r hr
  obtain ⟨raw, h, rfl⟩ := List.mem_map.1 hr
  obtain ⟨b1, b2, b3⟩ := hc.bars raw h
  constructor
  · rw [sigOf_read]; positivity
  · have e := ageRange_eq raw false "no" b3
    unfold ageRange at e
    rw [Prod.mk.injEq] at e
    rw [e.1, e.2]
    have : 4 * raw.age_upp / (raw.age_low + raw.age_upp) -
        -(4 * raw.age_low / (raw.age_low + raw.age_upp)) = 4 := by
      field_simp; ring
    linarith

theorem craters_ranges {craters : List RawCrater} (hc : CratersOK craters) :
    (craters.map (readRow false "no")).map (fun r => (truncA r, truncB r)) = craters.map ageRange := by
  rw [List.map_map]
  apply List.map_congr_left
  intro raw h
  exact ageRange_eq raw false "no" (hc.bars raw h).2.2

theorem ranges_lt {craters : List RawCrater} (hc : CratersOK craters) :
    ∀ p ∈ craters.map ageRange, p.1 < p.2 := by
  intro p hp
  rw [← craters_ranges hc] at hp
  obtain ⟨r, hr, rfl⟩ := List.mem_map.1 hp
  exact (craters_bounds hc r hr).2

/-- One run of the upper panel. -/
theorem ageFigRun_ok (g : Gen σ) (hg : LawfulGen g) (c : RunCfg) (d : RunData)
    (hc : CratersOK d.craters) (hs : ∀ l, (d.sortAges l).Perm l) (hts : c.timestep = 1e7)
    (draw seed : Int) (zs : List ℝ) (hz : zs = (g.truncnormEach (d.craters.map ageRange)
      (g.init (if seed = 0 then draw else seed))).1) :
    zs.length = d.craters.length ∧ ageFigRun g c d draw seed =
      .ok (List.zipWith (fun raw z => (ageUnits raw raw.age z : ℝ) / 100) d.craters zs,
        List.zipWith rowAged d.craters zs) := by
  have hzl : zs.length = d.craters.length := by
    rw [hz, hg.each_length _ _ (ranges_lt hc), List.length_map]
  refine ⟨hzl, ?_⟩
  unfold ageFigRun randomizeInPlace
  simp only [craters_ranges hc]
  rw [show (c.reseed draw seed).seed = if seed = 0 then draw else seed from rfl, ← hz,
    show (c.reseed draw seed).timestep = c.timestep from rfl, hts]
  obtain ⟨mid, hm⟩ := newAges_ok 1e7 (fun i => zs.getD i 0) (d.craters.map (readRow false "no")) 0
    (craters_bounds hc)
  obtain ⟨hl, hget⟩ := newAges_get _ _ _ _ _ hm
  have hmid : mid = List.zipWith rowAged d.craters zs := by
    apply List.ext_getElem?
    intro i
    rcases Nat.lt_or_ge i d.craters.length with h | h
    · rw [List.getElem?_zipWith, List.getElem?_eq_getElem h, List.getElem?_eq_getElem (show i < zs.length by omega)]
      have := hget i (readRow false "no" d.craters[i]) (by
        rw [List.getElem?_map, List.getElem?_eq_getElem h]; rfl)
      rw [this]
      simp only [Option.some.injEq]
      unfold rowAged roundToTs ageUnits
      rw [sigOf_read, Nat.zero_add, List.getD_eq_getElem?_getD, List.getElem?_eq_getElem (show i < zs.length by omega)]
      rfl
    · rw [List.getElem?_eq_none (by rw [hl, List.length_map]; exact h), List.getElem?_eq_none]
      rw [List.length_zipWith]; omega
  rw [hm]
  simp only [Except.map, bind, Except.bind]
  have hnames : d.craters.map (·.cname) = mid.map fun r => r.rest.crater.cname := by
    rw [hmid]
    apply List.ext_getElem?
    intro i
    rw [List.getElem?_map, List.getElem?_map, List.getElem?_zipWith]
    rcases Nat.lt_or_ge i d.craters.length with h | h
    · rw [List.getElem?_eq_getElem h, List.getElem?_eq_getElem (show i < zs.length by omega)]
      rfl
    · rw [List.getElem?_eq_none h]; rfl
  rw [hnames, agesByName_perm _ mid (hs mid) (hnames ▸ hc.names)]
  simp only [Except.ok.injEq, Prod.mk.injEq]
  refine ⟨?_, hmid⟩
  rw [hmid, List.map_zipWith]
  congr 1
  funext raw z
  simp only [rowAged]
  norm_num
  ring

end MoonPIES
