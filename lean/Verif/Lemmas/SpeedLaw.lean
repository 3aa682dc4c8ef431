import Verif.Model.SpeedLaw
import Verif.Spec.SpeedLaw

/-!
# Truncated normal distributions
-/

namespace MoonPIES

open MeasureTheory Set Spec

theorem normPdf_eq : normPdf = ProbabilityTheory.gaussianPDFReal 0 1 := by
  funext y
  unfold normPdf ProbabilityTheory.gaussianPDFReal
  rw [div_eq_inv_mul]
  congr 2
  · simp
  · simp

theorem normPdf_pos (y : ℝ) : 0 < normPdf y := by
  rw [normPdf_eq]; exact ProbabilityTheory.gaussianPDFReal_pos _ _ _ one_ne_zero

theorem normPdf_integrable : Integrable normPdf := by
  rw [normPdf_eq]; exact ProbabilityTheory.integrable_gaussianPDFReal _ _

theorem normPdf_total : ∫ y, normPdf y = 1 := by
  rw [normPdf_eq]; exact ProbabilityTheory.integral_gaussianPDFReal_eq_one _ one_ne_zero

/-- Integrals over sets of positive measure are positive. -/
theorem normPdf_set_pos (S : Set ℝ) (h : volume S ≠ 0) :
    0 < ∫ y in S, normPdf y := by
  rw [setIntegral_pos_iff_support_of_nonneg_ae]
  · have : Function.support normPdf = univ := by
      ext y; simp [(normPdf_pos y).ne']
    rw [this, univ_inter]
    exact pos_iff_ne_zero.2 h
  · exact ae_of_all _ fun y => (normPdf_pos y).le
  · exact normPdf_integrable.integrableOn

theorem normCdf_sub {a b : ℝ} (h : a ≤ b) : normCdf b - normCdf a = ∫ y in Ioc a b, normPdf y := by
  unfold normCdf
  rw [intervalIntegral.integral_Iic_sub_Iic normPdf_integrable.integrableOn
    normPdf_integrable.integrableOn, intervalIntegral.integral_of_le h]

theorem one_sub_normCdf (a : ℝ) : 1 - normCdf a = ∫ y in Ioi a, normPdf y := by
  unfold normCdf
  have := integral_add_compl (measurableSet_Iic (a := a)) normPdf_integrable
  rw [normPdf_total, compl_Iic] at this
  linarith

/-- The standardised support. -/
def truncSet (a : ℝ) (b : Option ℝ) : Set ℝ := {y | a ≤ y ∧ ∀ b', b = some b' → y ≤ b'}

theorem truncSet_none (a : ℝ) : truncSet a none = Ici a := by
  ext y; simp [truncSet]

theorem truncSet_some (a b : ℝ) : truncSet a (some b) = Icc a b := by
  ext y; simp [truncSet]

theorem truncSet_measurable (a : ℝ) (b : Option ℝ) : MeasurableSet (truncSet a b) := by
  cases b with
  | none => rw [truncSet_none]; exact measurableSet_Ici
  | some b => rw [truncSet_some]; exact measurableSet_Icc

/-- The normalisation is the mass of the support. -/
theorem truncMass (a : ℝ) (b : Option ℝ) (h : ∀ b', b = some b' → a < b') :
    normCdfTop b - normCdf a = ∫ y in truncSet a b, normPdf y := by
  cases b with
  | none => rw [truncSet_none, integral_Ici_eq_integral_Ioi]; exact one_sub_normCdf a
  | some b =>
    rw [truncSet_some, integral_Icc_eq_integral_Ioc]
    exact normCdf_sub (h b rfl).le

theorem truncMass_pos (a : ℝ) (b : Option ℝ) (h : ∀ b', b = some b' → a < b') :
    0 < normCdfTop b - normCdf a := by
  rw [truncMass a b h]
  apply normPdf_set_pos
  cases b with
  | none => rw [truncSet_none]; simp
  | some b =>
    rw [truncSet_some, Real.volume_Icc]
    simpa using h b rfl

/-- The standard density. -/
noncomputable def truncStd (a : ℝ) (b : Option ℝ) : ℝ → ℝ :=
  (truncSet a b).indicator fun y => normPdf y / (normCdfTop b - normCdf a)

theorem truncStd_integrable (a : ℝ) (b : Option ℝ) : Integrable (truncStd a b) :=
  (normPdf_integrable.div_const _).indicator (truncSet_measurable a b)

theorem truncStd_set (a : ℝ) (b : Option ℝ) (S : Set ℝ) :
    ∫ y in S, truncStd a b y = (∫ y in S ∩ truncSet a b, normPdf y) / (normCdfTop b - normCdf a) := by
  unfold truncStd
  rw [setIntegral_indicator (truncSet_measurable a b), integral_div]

theorem truncnormRv_pdf (a : ℝ) (b : Option ℝ) (loc scale x : ℝ) :
    (truncnormRv a b loc scale).pdf x = truncStd a b ((x - loc) / scale) / scale := by
  unfold truncnormRv truncStd
  simp only
  by_cases h : (x - loc) / scale ∈ truncSet a b
  · rw [indicator_of_mem h]; exact if_pos h
  · rw [indicator_of_notMem h, zero_div]; exact if_neg h

/-- Change of variable. -/
theorem integral_std (G : ℝ → ℝ) (loc scale : ℝ) (hs : 0 < scale) :
    ∫ x, G ((x - loc) / scale) / scale = ∫ y, G y := by
  rw [integral_div, integral_sub_right_eq_self (fun x => G (x / scale)) loc,
    Measure.integral_comp_div, abs_of_pos hs, smul_eq_mul]
  field_simp

theorem integral_std_set (G : ℝ → ℝ) (loc scale : ℝ) (hs : 0 < scale) (A : Set ℝ) (hA : MeasurableSet A) :
    ∫ x in A, G ((x - loc) / scale) / scale = ∫ y in {y | loc + scale * y ∈ A}, G y := by
  have hB : MeasurableSet {y : ℝ | loc + scale * y ∈ A} :=
    (measurable_const.add (measurable_const.mul measurable_id)) hA
  rw [← integral_indicator hA, ← integral_indicator hB,
    ← integral_std ({y | loc + scale * y ∈ A}.indicator G) loc scale hs]
  congr 1
  funext x
  have e : loc + scale * ((x - loc) / scale) = x := by field_simp; ring
  by_cases hx : x ∈ A
  · rw [indicator_of_mem hx, indicator_of_mem (show (x - loc) / scale ∈ {y | loc + scale * y ∈ A} by
      rw [mem_ofPred_eq, e]; exact hx)]
  · rw [indicator_of_notMem hx, indicator_of_notMem (show (x - loc) / scale ∉ {y | loc + scale * y ∈ A} by
      rw [mem_ofPred_eq, e]; exact hx)]
    simp

theorem truncStd_total (a : ℝ) (b : Option ℝ) (h : ∀ b', b = some b' → a < b') :
    ∫ y, truncStd a b y = 1 := by
  rw [← setIntegral_univ, truncStd_set, univ_inter, ← truncMass a b h]
  exact div_self (truncMass_pos a b h).ne'

theorem truncStd_below (a : ℝ) (b : Option ℝ) (h : ∀ b', b = some b' → a < b') (z : ℝ) :
    ∫ y in Iic z, truncStd a b y = if z < a then 0 else if ∃ b', b = some b' ∧ b' < z then 1
      else (normCdf z - normCdf a) / (normCdfTop b - normCdf a) := by
  rw [truncStd_set]
  split
  · rename_i hz
    have : Iic z ∩ truncSet a b = ∅ := by
      ext y
      simp only [truncSet, mem_inter_iff, mem_Iic, mem_ofPred_eq, mem_empty_iff_false, iff_false]
      rintro ⟨h1, h2, -⟩
      linarith
    rw [this]
    simp
  · rename_i hz
    push Not at hz
    split
    · rename_i hb
      obtain ⟨b', rfl, hb⟩ := hb
      have : Iic z ∩ truncSet a (some b') = truncSet a (some b') := by
        rw [truncSet_some]
        ext y
        simp only [mem_inter_iff, mem_Iic, mem_Icc]
        constructor
        · exact fun h => h.2
        · exact fun h => ⟨by linarith [h.2], h⟩
      rw [this, ← truncMass _ _ h]
      exact div_self (truncMass_pos _ _ h).ne'
    · rename_i hb
      push Not at hb
      congr 1
      have : Iic z ∩ truncSet a b = Icc a z := by
        ext y
        simp only [truncSet, mem_inter_iff, mem_Iic, mem_ofPred_eq, mem_Icc]
        constructor
        · rintro ⟨h1, h2, -⟩
          exact ⟨h2, h1⟩
        · rintro ⟨h1, h2⟩
          exact ⟨h2, h1, fun b' e => h2.trans (hb b' e)⟩
      rw [this, integral_Icc_eq_integral_Ioc, normCdf_sub hz]

/-- A truncated normal distribution is one. -/
theorem truncnormRv_distribution (a : ℝ) (b : Option ℝ) (loc scale : ℝ) (hs : 0 < scale)
    (h : ∀ b', b = some b' → a < b') :
    Distribution (truncnormRv a b loc scale).pdf (truncnormRv a b loc scale).cdf
      (truncnormRv a b loc scale).sf := by
  have hpdf : (truncnormRv a b loc scale).pdf = fun x => truncStd a b ((x - loc) / scale) / scale := by
    funext x; exact truncnormRv_pdf a b loc scale x
  have hint : Integrable (truncnormRv a b loc scale).pdf := by
    rw [hpdf]
    have := ((truncStd_integrable a b).comp_div hs.ne').comp_sub_right loc
    exact this.div_const scale
  have htot : ∫ x, (truncnormRv a b loc scale).pdf x = 1 := by
    rw [hpdf, integral_std _ _ _ hs, truncStd_total a b h]
  have hcdf : ∀ x, (truncnormRv a b loc scale).cdf x = ∫ t in Iic x, (truncnormRv a b loc scale).pdf t := by
    intro x
    rw [hpdf, integral_std_set _ _ _ hs _ measurableSet_Iic]
    have : {y | loc + scale * y ∈ Iic x} = Iic ((x - loc) / scale) := by
      ext y
      rw [mem_ofPred_eq, mem_Iic, mem_Iic, le_div_iff₀ hs]
      constructor <;> intro h <;> linarith
    rw [this, truncStd_below a b h]
    rfl
  refine ⟨?_, hint, htot, hcdf, ?_⟩
  · intro x
    rw [truncnormRv_pdf]
    apply div_nonneg _ hs.le
    unfold truncStd
    apply indicator_nonneg
    intro y _
    exact div_nonneg (normPdf_pos y).le (truncMass_pos a b h).le
  · intro x
    have hc := integral_add_compl (measurableSet_Iic (a := x)) hint
    rw [htot, compl_Iic, ← hcdf] at hc
    have : (truncnormRv a b loc scale).sf x = 1 - (truncnormRv a b loc scale).cdf x := by
      have hm := (truncMass_pos a b h).ne'
      simp only [truncnormRv]
      split
      · simp
      · split
        · simp
        · field_simp
          ring
    linarith

/-! ## Mixtures -/

theorem weightedSum_cons (w v : ℝ) (ws vs : List ℝ) :
    weightedSum (w :: ws) (v :: vs) = v * w + weightedSum ws vs := by
  simp [weightedSum]

theorem weighted_integrable (subs : List (SubModel ℝ)) (h : ∀ s ∈ subs, Integrable s.pdf) (ws : List ℝ) :
    Integrable fun x => weightedSum ws (subs.map fun s => s.pdf x) := by
  induction subs generalizing ws with
  | nil => simp [weightedSum]
  | cons s l ih =>
    cases ws with
    | nil => simp [weightedSum]
    | cons w ws =>
      simp only [List.map_cons, weightedSum_cons]
      exact ((h s (by simp)).mul_const w).add (ih (fun s hs => h s (by simp [hs])) ws)

theorem weighted_integral (subs : List (SubModel ℝ)) (h : ∀ s ∈ subs, Integrable s.pdf) (ws : List ℝ)
    (A : Set ℝ) : ∫ x in A, weightedSum ws (subs.map fun s => s.pdf x) =
      weightedSum ws (subs.map fun s => ∫ x in A, s.pdf x) := by
  induction subs generalizing ws with
  | nil => simp [weightedSum]
  | cons s l ih =>
    cases ws with
    | nil => simp [weightedSum]
    | cons w ws =>
      simp only [List.map_cons, weightedSum_cons]
      rw [integral_add ((h s (by simp)).mul_const w).integrableOn
        (weighted_integrable l (fun s hs => h s (by simp [hs])) ws).integrableOn,
        ih (fun s hs => h s (by simp [hs])), integral_mul_const]

theorem weightedSum_ones (ws : List ℝ) : weightedSum ws (ws.map fun _ => 1) = ws.sum := by
  induction ws with
  | nil => rfl
  | cons w ws ih => rw [List.map_cons, weightedSum_cons, ih, List.sum_cons, one_mul]

theorem weightedSum_nonneg (ws vs : List ℝ) (hw : ∀ w ∈ ws, 0 ≤ w) (hv : ∀ v ∈ vs, 0 ≤ v) :
    0 ≤ weightedSum ws vs := by
  induction ws generalizing vs with
  | nil => simp [weightedSum]
  | cons w ws ih =>
    cases vs with
    | nil => simp [weightedSum]
    | cons v vs =>
      rw [weightedSum_cons]
      exact add_nonneg (mul_nonneg (hv v (by simp)) (hw w (by simp)))
        (ih vs (fun w h => hw w (by simp [h])) (fun v h => hv v (by simp [h])))

/-- A mixture of distributions, with weights of sum 1, is a distribution. -/
theorem mixture_distribution (m : Mixture ℝ) (hl : m.weights.length = m.subs.length)
    (hw : ∀ w ∈ m.weights, 0 ≤ w) (h1 : m.weights.sum = 1)
    (hd : ∀ s ∈ m.subs, Distribution s.pdf s.cdf s.sf) : Distribution m.pdf m.cdf m.sf := by
  have hi : ∀ s ∈ m.subs, Integrable s.pdf := fun s hs => (hd s hs).integrable
  refine ⟨?_, weighted_integrable _ hi _, ?_, ?_, ?_⟩
  · intro x
    apply weightedSum_nonneg _ _ hw
    intro v hv
    obtain ⟨s, hs, rfl⟩ := List.mem_map.1 hv
    exact (hd s hs).nonneg x
  · have := weighted_integral m.subs hi m.weights univ
    simp only [setIntegral_univ] at this
    unfold Mixture.pdf
    rw [this, ← h1, ← weightedSum_ones]
    congr 1
    apply List.ext_getElem
    · simp [hl]
    · intro i h1 h2
      simp only [List.getElem_map]
      exact (hd _ (List.getElem_mem _)).total
  · intro x
    unfold Mixture.pdf Mixture.cdf
    rw [weighted_integral m.subs hi]
    congr 1
    apply List.map_congr_left
    intro s hs
    exact (hd s hs).below x
  · intro x
    unfold Mixture.pdf Mixture.sf
    rw [weighted_integral m.subs hi]
    congr 1
    apply List.map_congr_left
    intro s hs
    exact (hd s hs).above x

end MoonPIES
