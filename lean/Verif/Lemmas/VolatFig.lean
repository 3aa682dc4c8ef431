import Verif.Model.VolatFig
import Verif.Spec.VolatFig
import Verif.Props.Dists
import Verif.Lemmas.Main
import Verif.Lemmas.Thermal
import Verif.Props.AgesToTime

/-!
# Lemmas for the figure of volatilized fractions
-/

namespace MoonPIES

open Spec

theorem arrMin_ok {l : List ℝ} {m : ℝ} (h : arrMin l = .ok m) : m ∈ l ∧ ∀ x ∈ l, m ≤ x := by
  cases l with
  | nil => cases h
  | cons x l => injection h with h; rw [← h]; exact foldl_min_spec l x

theorem arrMax_ok {l : List ℝ} {m : ℝ} (h : arrMax l = .ok m) : m ∈ l ∧ ∀ x ∈ l, x ≤ m := by
  cases l with
  | nil => cases h
  | cons x l => injection h with h; rw [← h]; exact foldl_max_spec l x

theorem ejectaPct_pos {m : ℝ} (h : 0 ≤ m) : ejectaPct m = .ok (100 / (1 + m)) := by
  unfold ejectaPct
  rw [if_neg (by linarith)]
  congr 1
  ring

/-- The extent for the grid of the script. -/
theorem volatExtent_script {ε : ℝ} {t dm : MeltTable ℝ} (g : ScriptGrid ε t)
    (hd : insertHundred t = .ok dm) {e : Extent} (he : volatExtent dm = .ok e) :
    e = ⟨100, 510, 0, 100⟩ := by
  unfold insertHundred at hd
  split_ifs at hd
  injection hd with hd
  subst hd
  unfold volatExtent at he
  obtain ⟨pct, h1, he⟩ := bind_ok_inv he
  obtain ⟨l, h2, he⟩ := bind_ok_inv he
  obtain ⟨r, h3, he⟩ := bind_ok_inv he
  obtain ⟨tp, h4, he⟩ := bind_ok_inv he
  injection he with he
  rw [mapM_eq_map _ _ (fun r : ℝ × List ℝ => 100 / (1 + r.1)) (by
    intro a ha
    obtain ⟨b, hb, rfl⟩ := List.mem_map.1 ha
    exact ejectaPct_pos (g.ratio b hb))] at h1
  injection h1 with h1
  have hl : l = 100 := by
    obtain ⟨a, b⟩ := arrMin_ok h2
    refine le_antisymm (b _ (by simp)) ?_
    rcases List.mem_cons.1 a with a | a
    · rw [a]
    · rw [g.temps] at a
      obtain ⟨j, -, rfl⟩ := List.mem_map.1 a
      have : (0 : ℝ) ≤ j := Nat.cast_nonneg j
      linarith
  have hr : r = 510 := by
    obtain ⟨a, b⟩ := arrMax_ok h3
    refine le_antisymm ?_ (b _ ?_)
    · rcases List.mem_cons.1 a with a | a
      · rw [a]; norm_num
      · rw [g.temps] at a
        obtain ⟨j, hj, rfl⟩ := List.mem_map.1 a
        have : (j : ℝ) ≤ 80 := by
          have := List.mem_range.1 hj
          exact_mod_cast (by omega : j ≤ 80)
        linarith
    · rw [g.temps]
      refine List.mem_cons_of_mem _ (List.mem_map.2 ⟨80, by simp, by norm_num⟩)
  have ht : tp = 100 := by
    obtain ⟨a, b⟩ := arrMax_ok h4
    rw [← h1] at a b
    refine le_antisymm ?_ (b _ ?_)
    · obtain ⟨q, hq, rfl⟩ := List.mem_map.1 a
      obtain ⟨q', hq', rfl⟩ := List.mem_map.1 hq
      have := g.ratio q' hq'
      simp only
      rw [div_le_iff₀ (by linarith)]
      linarith
    · obtain ⟨q, hq, h0⟩ := g.first
      refine List.mem_map.2 ⟨(q.1, 0 :: q.2), List.mem_map.2 ⟨q, List.mem_of_getElem? hq, rfl⟩, ?_⟩
      simp only [h0]; norm_num
  rw [← he, hl, hr, ht]

/-- What an image on this grid shows in the cell of row `i` and column `j`. -/
theorem imshow_script {ε : ℝ} {t dm : MeltTable ℝ} (g : ScriptGrid ε t)
    (hd : insertHundred t = .ok dm) (i j : Nat) (hi : i < 40) (hj : j < 82) (x y : ℝ)
    (hx : 100 + 5 * (j : ℝ) ≤ x) (hx' : x < 105 + 5 * j) (hy : 97.5 - 2.5 * (i : ℝ) < y)
    (hy' : y ≤ 100 - 2.5 * i) (h1 : 100 < x) (h2 : y < 100) :
    ∃ r, t.rows[i]? = some r ∧ ∃ f, (0 :: r.2)[j]? = some f ∧
      imshowAt (dm.rows.map fun r => r.2.map (· * 100)) dm.temps.length ⟨100, 510, 0, 100⟩ x y =
        some (f * 100) := by
  unfold insertHundred at hd
  split_ifs at hd
  injection hd with hd
  subst hd
  have hi' : i < t.rows.length := by rw [g.count]; exact hi
  refine ⟨t.rows[i], List.getElem?_eq_getElem hi', ?_⟩
  have hl := g.full _ (List.getElem_mem hi')
  have hj' : j < (0 :: t.rows[i].2).length := by simp [hl]; omega
  refine ⟨(0 :: t.rows[i].2)[j], List.getElem?_eq_getElem hj', ?_⟩
  have hic : (i : ℝ) ≤ 39 := by exact_mod_cast (by omega : i ≤ 39)
  have hjc : (j : ℝ) ≤ 81 := by exact_mod_cast (by omega : j ≤ 81)
  unfold imshowAt
  rw [if_pos ⟨h1, by linarith, by norm_num at hy ⊢; linarith, h2⟩]
  simp only []
  have er : ⌊(100 - y) / (100 - 0) * (((t.rows.map fun r => (r.1, (0 : ℝ) :: r.2)).map
      fun r => r.2.map (· * 100)).length : ℝ)⌋ = (i : Int) := by
    rw [List.length_map, List.length_map, g.count, Int.floor_eq_iff]
    constructor <;> push_cast <;> linarith
  have ec : ⌊(x - 100) / (510 - 100) * (((100 : ℝ) :: t.temps).length : ℝ)⌋ = (j : Int) := by
    rw [List.length_cons, g.temps, List.length_map, List.length_range, Int.floor_eq_iff]
    constructor <;> push_cast <;> linarith
  rw [er, ec]
  simp only [Int.toNat_natCast, List.getElem?_map, List.getElem?_eq_getElem hi', Option.map_some,
    Option.bind_some, List.getElem?_eq_getElem hj']

end MoonPIES
