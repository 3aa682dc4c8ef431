import Verif.Model.Scaling
import Verif.Lemmas.Linspace

/-!
# C41: size-frequency distribution
-/

namespace MoonPIES

/-- Number of intervals of the diameter array. -/
theorem diamArray_eq (dmin dmax step : ℝ) (n : Nat) (hn : 1 ≤ n) (hstep : 0 < step)
    (h1 : n * step ≤ dmax - dmin) (h2 : dmax - dmin < (n + 1) * step) :
    diamArray dmin dmax step = linspace dmin dmax ((n + 1 : Nat) : Int) := by
  unfold diamArray
  rw [if_neg hstep.ne']
  have hp : (0 : ℝ) < n := by exact_mod_cast hn
  have e : pyInt ((dmax - dmin) / step) = n := by
    unfold pyInt
    have h3 : (n : ℝ) ≤ (dmax - dmin) / step := by rw [le_div_iff₀ hstep]; exact h1
    have h4 : (dmax - dmin) / step < n + 1 := by rw [div_lt_iff₀ hstep]; exact h2
    rw [if_pos (by linarith), Int.floor_eq_iff]
    push_cast
    exact ⟨h3, h4⟩
  rw [e]
  push_cast
  rfl

theorem sum_pos_of_pos (l : List ℝ) (hl : l ≠ []) (h : ∀ x ∈ l, 0 < x) : 0 < l.sum := by
  induction l with
  | nil => exact absurd rfl hl
  | cons a l ih =>
    rw [List.sum_cons]
    have ha := h a (by simp)
    by_cases hl' : l = []
    · subst hl'; simpa using ha
    · have := ih hl' (fun x hx => h x (by simp [hx]))
      linarith

theorem sum_map_div (l : List ℝ) (c : ℝ) : (l.map (fun x => x / c)).sum = l.sum / c := by
  induction l with
  | nil => simp
  | cons a l ih => simp only [List.map_cons, List.sum_cons, ih]; ring

/-- **C41** the probabilities of any non-empty list of positive diameters are positive,
sum to 1 and, for a negative slope, strictly decrease with diameter. -/
theorem C41_sfd_probabilities (ds : List ℝ) (slope : ℝ) (hne : ds ≠ []) (hpos : ∀ d ∈ ds, 0 < d) :
    (sfdProb ds slope).length = ds.length ∧ (∀ p ∈ sfdProb ds slope, 0 < p) ∧
    (sfdProb ds slope).sum = 1 ∧
    (slope < 0 → ∀ (i j : Nat) d d' p p', ds[i]? = some d → ds[j]? = some d' →
      (sfdProb ds slope)[i]? = some p → (sfdProb ds slope)[j]? = some p' → d < d' → p' < p) ∧
    (∀ (i j : Nat) d d' p p', ds[i]? = some d → ds[j]? = some d' →
      (sfdProb ds slope)[i]? = some p → (sfdProb ds slope)[j]? = some p' →
      p * d' ^ slope = p' * d ^ slope) := by
  have hS : 0 < (ds.map (fun d => d ^ slope)).sum := by
    apply sum_pos_of_pos
    · simpa using hne
    · intro x hx
      rw [List.mem_map] at hx
      obtain ⟨d, hd, rfl⟩ := hx
      have := hpos d hd
      positivity
  have hget : ∀ (i : Nat) d p, ds[i]? = some d → (sfdProb ds slope)[i]? = some p →
      p = d ^ slope / (ds.map (fun d => d ^ slope)).sum := by
    intro i d p h1 h2
    unfold sfdProb at h2
    simp only [List.getElem?_map, h1, Option.map_some, Option.some.injEq] at h2
    exact h2.symm
  refine ⟨by simp [sfdProb], ?_, ?_, ?_, ?_⟩
  · intro p hp
    unfold sfdProb at hp
    simp only [List.map_map, List.mem_map, Function.comp] at hp
    obtain ⟨d, hd, rfl⟩ := hp
    have := hpos d hd
    positivity
  · unfold sfdProb
    simp only []
    rw [sum_map_div, div_self hS.ne']
  · intro hs i j d d' p p' h1 h2 h3 h4 hlt
    rw [hget i d p h1 h3, hget j d' p' h2 h4]
    apply div_lt_div_of_pos_right _ hS
    exact Real.rpow_lt_rpow_of_neg (hpos d (List.mem_of_getElem? h1)) hlt hs
  · intro i j d d' p p' h1 h2 h3 h4
    rw [hget i d p h1 h3, hget j d' p' h2 h4]
    ring

/-- **C41** when at least one step fits between the ends: the diameters run from `dmin`
to `dmax` inclusive, strictly increasing with equal spacing of at least one and less
than two steps (exactly one when the step divides the range), the probabilities are positive, sum to
1, decrease for a negative slope and follow the power law with the given slope. -/
theorem C41_crater_sfd_partial (dmin dmax step slope : ℝ) (h0 : 0 < dmin) (hs : 0 < step)
    (h1 : step ≤ dmax - dmin) :
    ∃ ds ps h, craterSfd dmin dmax step slope = .ok (ds, ps) ∧ 2 ≤ ds.length ∧
      ps.length = ds.length ∧ ds.head? = some dmin ∧ ds.getLast? = some dmax ∧
      ds.Pairwise (· < ·) ∧
      (step ≤ h ∧ h < 2 * step) ∧
      ((∃ n : Nat, dmax - dmin = n * step) → h = step) ∧
      (∀ (i : Nat) d, ds[i]? = some d → d = dmin + i * h) ∧
      (∀ p ∈ ps, 0 < p) ∧ ps.sum = 1 ∧
      (slope < 0 → ∀ (i j : Nat) p p', i < j → ps[i]? = some p → ps[j]? = some p' → p' < p) ∧
      (∀ (i j : Nat) d d' p p', ds[i]? = some d → ds[j]? = some d' → ps[i]? = some p →
        ps[j]? = some p' → p / p' = (d / d') ^ slope) := by
  have hq0 : 0 ≤ (dmax - dmin) / step := div_nonneg (by linarith) hs.le
  obtain ⟨n, hn⟩ : ∃ n, n = ⌊(dmax - dmin) / step⌋₊ := ⟨_, rfl⟩
  have hn1 : (n : ℝ) * step ≤ dmax - dmin := by
    rw [← le_div_iff₀ hs, hn]; exact Nat.floor_le hq0
  have hn2 : dmax - dmin < (n + 1) * step := by
    rw [← div_lt_iff₀ hs, hn]; exact Nat.lt_floor_add_one _
  have hn3 : 1 ≤ n := by
    rw [hn]; apply Nat.le_floor; push_cast; rw [le_div_iff₀ hs]; linarith
  have hnr : (1 : ℝ) ≤ n := by exact_mod_cast hn3
  have hab : dmin < dmax := by linarith
  obtain ⟨ds, hds⟩ : ∃ ds, linspace dmin dmax ((n + 1 : Nat) : Int) = .ok ds :=
    ⟨_, linspace_eq dmin dmax (n + 1) (by omega)⟩
  obtain ⟨hlen, hget⟩ := linspace_get dmin dmax (n + 1) (by omega) ds hds
  have hasc := linspace_asc dmin dmax (n + 1) (by omega) hab ds hds
  have hbd := linspace_bounds dmin dmax (n + 1) (by omega) hab.le ds hds
  obtain ⟨hfst, hlst⟩ := linspace_last dmin dmax (n + 1) (by omega) ds hds
  have hne : ds ≠ [] := by intro h; rw [h] at hlen; simp at hlen
  have hpos : ∀ d ∈ ds, 0 < d := fun d hd => lt_of_lt_of_le h0 (hbd d hd).1
  obtain ⟨p1, p2, p3, p4, p5⟩ := C41_sfd_probabilities ds slope hne hpos
  refine ⟨ds, sfdProb ds slope, (dmax - dmin) / n, ?_, by omega, p1, ?_, ?_, hasc, ⟨?_, ?_⟩, ?_, ?_,
    p2, p3, ?_, ?_⟩
  · unfold craterSfd
    rw [diamArray_eq dmin dmax step n hn3 hs hn1 hn2, hds]; rfl
  · rw [List.head?_eq_getElem?]; exact hfst
  · rw [List.getLast?_eq_getElem?, hlen]; exact hlst
  · rw [le_div_iff₀ (by linarith)]; linarith
  · rw [div_lt_iff₀ (by linarith)]; nlinarith
  · rintro ⟨m, hm⟩
    have : n = m := by
      rw [hn, hm, mul_div_cancel_right₀ _ hs.ne', Nat.floor_natCast]
    rw [hm, ← this, mul_div_cancel_left₀ _ (by linarith)]
  · intro i d hi
    have hil : i < n + 1 := by rw [← hlen]; exact (List.getElem?_eq_some_iff.1 hi).1
    rw [hget i hil, Option.some.injEq] at hi
    rw [← hi]; push_cast; ring
  · intro hsl i j p p' hij hpi hpj
    have hil : i < ds.length := by rw [← p1]; exact (List.getElem?_eq_some_iff.1 hpi).1
    have hjl : j < ds.length := by rw [← p1]; exact (List.getElem?_eq_some_iff.1 hpj).1
    exact p4 hsl i j _ _ p p' (List.getElem?_eq_getElem hil) (List.getElem?_eq_getElem hjl) hpi hpj
      (List.pairwise_iff_getElem.1 hasc i j hil hjl hij)
  · intro i j d d' p p' h1 h2 h3 h4
    have hd := hpos d (List.mem_of_getElem? h1)
    have hd' := hpos d' (List.mem_of_getElem? h2)
    have hp' := p2 p' (List.mem_of_getElem? h4)
    rw [Real.div_rpow hd.le hd'.le, div_eq_div_iff hp'.ne' (by positivity),
      p5 i j d d' p p' h1 h2 h3 h4]
    ring

/-- **C41** when the step exceeds the range the smallest diameter alone is returned, with
probability 1. -/
theorem C41_step_too_large (dmin dmax step slope : ℝ) (h0 : 0 < dmin) (h : dmin < dmax)
    (hs : dmax - dmin < step) : craterSfd dmin dmax step slope = .ok ([dmin], [1]) := by
  have hsp : 0 < step := by linarith
  unfold craterSfd diamArray
  rw [if_neg hsp.ne']
  have e : pyInt ((dmax - dmin) / step) = 0 := by
    unfold pyInt
    have h3 : 0 ≤ (dmax - dmin) / step := div_nonneg (by linarith) hsp.le
    have h4 : (dmax - dmin) / step < 1 := by rw [div_lt_one hsp]; exact hs
    rw [if_pos h3, Int.floor_eq_iff]
    constructor <;> simp <;> linarith
  rw [e]
  have e1 : sfdProb [dmin] slope = [1] := by
    have : 0 < dmin ^ slope := by positivity
    simp [sfdProb, this.ne']
  rw [← e1]
  rfl

/-- **C41 refuted** as stated for every step: the maximum can be missing. -/
theorem C41_refuted :
    ¬ ∀ (dmin dmax step slope : ℝ), 0 < dmin → dmin < dmax → 0 < step →
      ∃ ds ps, craterSfd dmin dmax step slope = .ok (ds, ps) ∧ ds.getLast? = some dmax := by
  intro h
  obtain ⟨ds, ps, e, hl⟩ := h 1 2 5 (-3) (by norm_num) (by norm_num) (by norm_num)
  rw [C41_step_too_large 1 2 5 (-3) (by norm_num) (by norm_num) (by norm_num)] at e
  simp only [Except.ok.injEq, Prod.mk.injEq] at e
  rw [← e.1] at hl
  simp at hl

/-- The default regime `e`. -/
example : ∃ ds ps h, craterSfd 15000 300000 1000 (-1.8) = .ok (ds, ps) ∧
    ds.getLast? = some 300000 ∧ ps.sum = 1 ∧ (1000 ≤ h ∧ h < 2 * (1000 : ℝ)) := by
  obtain ⟨ds, ps, h, h1, -, -, -, h2, -, h3, -, -, -, h4, -⟩ :=
    C41_crater_sfd_partial 15000 300000 1000 (-1.8) (by norm_num) (by norm_num) (by norm_num)
  exact ⟨ds, ps, h, h1, h2, h4, h3⟩

end MoonPIES
