import Verif.Props.Traps
import Verif.Props.Melt

/-!
# The order of the cold traps in the melt table
-/

namespace MoonPIES

open Spec

/-- Strictly ascending lists with the same members are equal. -/
theorem sorted_ext {K : Type} [LinearOrder K] {l l' : List K} (h : l.Pairwise (· < ·))
    (h' : l'.Pairwise (· < ·)) (hm : ∀ x, x ∈ l ↔ x ∈ l') : l = l' :=
  List.Perm.eq_of_pairwise (fun _ _ _ _ a b => absurd (lt_trans a b) (lt_irrefl _)) h h'
    ((List.perm_ext_iff_of_nodup (h.imp ne_of_lt) (h'.imp ne_of_lt)).2 hm)

/-- The grid depends only on which ratios are asked for. -/
theorem insertUnique_congr {src src' : List (Option ℝ)} (h : ∀ x, x ∈ src ↔ x ∈ src')
    (target : List ℝ) : insertUniqueInRange src target = insertUniqueInRange src' target := by
  cases target with
  | nil => rfl
  | cons y ys =>
    unfold insertUniqueInRange
    simp only []
    congr 1
    refine sorted_ext (sortUnique_sorted _) (sortUnique_sorted _) (fun x => ?_)
    rw [mem_sortUnique, mem_sortUnique]
    simp only [List.mem_append, List.mem_filter, List.mem_filterMap, id_eq, exists_eq_right, h]

theorem getMeltFrac_length {tbl : MeltTable ℝ} {qs : List (List (ℝ × Option ℝ))}
    {melts : List (List (Option ℝ))} (h : getMeltFrac tbl qs = .ok melts) :
    melts.length = qs.length := by
  unfold getMeltFrac at h
  obtain ⟨temps, h1, h⟩ := bind_ok_inv h
  obtain ⟨mrs, h2, h⟩ := bind_ok_inv h
  exact (mapM_ok_inv _ _ _ h).1

/-- Two batches of queries with the same members: a column both contain gets the same answers. -/
theorem getMeltFrac_same {tbl : MeltTable ℝ} {qs qs' : List (List (ℝ × Option ℝ))}
    {melts melts' : List (List (Option ℝ))} (h : getMeltFrac tbl qs = .ok melts)
    (h' : getMeltFrac tbl qs' = .ok melts') (hm : ∀ col, col ∈ qs ↔ col ∈ qs') (j j' : Nat)
    (col : List (ℝ × Option ℝ)) (hj : qs[j]? = some col) (hj' : qs'[j']? = some col) :
    ∃ m, melts[j]? = some m ∧ melts'[j']? = some m := by
  unfold getMeltFrac at h h'
  obtain ⟨temps, a1, h⟩ := bind_ok_inv h
  obtain ⟨mrs, a2, h⟩ := bind_ok_inv h
  obtain ⟨temps', b1, h'⟩ := bind_ok_inv h'
  obtain ⟨mrs', b2, h'⟩ := bind_ok_inv h'
  have hf : ∀ q, q ∈ qs.flatten ↔ q ∈ qs'.flatten := by
    intro q
    simp only [List.mem_flatten, hm]
  have e1 := insertUnique_congr (src := qs.flatten.map (fun q => some q.1))
    (src' := qs'.flatten.map (fun q => some q.1)) (fun x => by simp only [List.mem_map, hf]) tbl.temps
  have e2 := insertUnique_congr (src := qs.flatten.map (fun q => q.2))
    (src' := qs'.flatten.map (fun q => q.2)) (fun x => by simp only [List.mem_map, hf])
    (tbl.rows.map (·.1))
  rw [e1, b1] at a1
  rw [e2, b2] at a2
  injection a1 with a1
  injection a2 with a2
  subst a1 a2
  obtain ⟨m, m1, m2⟩ := (mapM_ok_inv _ _ _ h).2 j col hj
  obtain ⟨m', m1', m2'⟩ := (mapM_ok_inv _ _ _ h').2 j' col hj'
  rw [m2] at m2'
  injection m2' with m2'
  subst m2'
  exact ⟨_, m1, m1'⟩

/-- The questions put to the melt table for one cold trap. -/
noncomputable def Spec.trapQueries (c : RunCfg) (df : CraterTable) (dists : List (List (Option ℝ)))
    (i : Nat) : List (ℝ × Option ℝ) :=
  (ejectaTemp c.bsed (df.map (·.rest.crater.isbasin))).zip ((column dists i).map
    (mixingRatio c.mixing_ratio_petro c.mixing_ratio_a c.mixing_ratio_b))

/-- The fractions lost by one cold trap, from its answers of the melt table. -/
theorem bsedArrays_frac {c : RunCfg} {d : RunData} {time : List ℝ} (hne : time ≠ [])
    {df : CraterTable} {dists : List (List (Option ℝ))} {thick bd bf : List (List ℝ)}
    (h : bsedArrays c d time df dists thick = .ok (bd, bf)) (hb : c.ballistic_sed = true) :
    ∃ melts, getMeltFrac d.melt ((List.range c.coldtrap_names.length).map
        (trapQueries c df dists)) = .ok melts ∧
      ∀ j, j < c.coldtrap_names.length → ∃ m o, melts[j]? = some m ∧
        ages2time c.bsed.rtol time ((df.map (·.age)).zip m) nanmax 0 = .ok o ∧
        colOf j bf = (o.map (fun x => x * c.bsed.ballistic_sed_frac_lost)).map (fun x => [x]) := by
  unfold bsedArrays at h
  obtain ⟨out, ho, h⟩ := bind_ok_inv h
  injection h with h
  injection h with h1 h2
  subst h1 h2
  unfold bsedDepth at ho
  have hsed : c.bsed.ballistic_sed = c.ballistic_sed := rfl
  rw [if_neg (by rw [hsed, hb]; exact fun h => h rfl)] at ho
  obtain ⟨melts, hm, ho⟩ := bind_ok_inv ho
  rw [List.map_map] at hm
  refine ⟨melts, hm, ?_⟩
  have ml := getMeltFrac_length hm
  rw [List.length_map, List.length_range] at ml
  obtain ⟨ol, oi⟩ := mapM_ok_inv _ _ _ ho
  rw [List.length_zip, List.length_map, List.length_range, ml, min_self] at ol
  have hcol : ∀ (k : Nat), k < c.coldtrap_names.length → ∃ m o q, melts[k]? = some m ∧
      ages2time c.bsed.rtol time ((df.map (·.age)).zip m) nanmax 0 = .ok o ∧
      o.length = time.length ∧ out[k]? = some q ∧
      q.2 = o.map (fun x => x * c.bsed.ballistic_sed_frac_lost) := by
    intro k hk
    have hkm : melts[k]? = some melts[k] := List.getElem?_eq_getElem (by omega)
    have hz : ((List.range c.coldtrap_names.length).map (fun i => (column dists i, column thick i))
        |>.zip melts)[k]? = some ((column dists k, column thick k), melts[k]) :=
      List.getElem?_zip_eq_some.2 ⟨by rw [List.getElem?_map, List.getElem?_range hk]; rfl, hkm⟩
    obtain ⟨q, q1, q2⟩ := oi k _ hz
    obtain ⟨o1, a1, a2, -⟩ := thick_time c.bsed.rtol time hne (df.map (·.age)) (column thick k)
    obtain ⟨o2, b1, b2, -⟩ := C16_maximum c.bsed.rtol time hne ((df.map (·.age)).zip
      ((column dists k).map (mixingRatio c.mixing_ratio_petro c.mixing_ratio_a c.mixing_ratio_b)))
    obtain ⟨o3, c1, c2, -⟩ := C16_maximum c.bsed.rtol time hne ((df.map (·.age)).zip melts[k])
    unfold bsedColumn at q2
    simp only [bind, Except.bind] at q2
    rw [a1] at q2; simp only [] at q2
    rw [b1] at q2; simp only [] at q2
    rw [c1] at q2; simp only [] at q2
    injection q2 with q2
    exact ⟨_, o3, q, hkm, c1, c2, q1, by rw [← q2]⟩
  intro j hj
  obtain ⟨m, o, q, m1, m2, m3, m4, m5⟩ := hcol j hj
  refine ⟨m, o, m1, m2, ?_⟩
  rw [← m5]
  refine colOf_columns (fun p hp => ?_) (by rw [List.getElem?_map, m4]; rfl)
  obtain ⟨p', hp', rfl⟩ := List.mem_map.1 hp
  obtain ⟨k, hk⟩ := List.mem_iff_getElem?.1 hp'
  have hkl : k < c.coldtrap_names.length := by
    rw [← ol]; exact (List.getElem?_eq_some_iff.1 hk).1
  obtain ⟨m', o', q', n1, n2, n3, n4, n5⟩ := hcol k hkl
  rw [hk] at n4
  injection n4 with n4
  rw [n4, n5, List.length_map, n3]

end MoonPIES
