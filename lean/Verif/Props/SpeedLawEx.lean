import Verif.Props.SpeedLaw
import Verif.Props.Main

/-!
# C107: a generator that draws as assumed
-/

namespace MoonPIES

open MeasureTheory Set Spec ProbabilityTheory

open Classical in
/-- The number itself in the support, the lower end elsewhere. -/
noncomputable def clipTo (a : ℝ) (b : Option ℝ) (z : ℝ) : ℝ := if z ∈ truncSet a b then z else a

/-- A generator whose state has the choice and two numbers, drawn in turn. -/
noncomputable def tripleGen : Gen (ℕ × ℝ × ℝ) where
  init _ := (0, 0, 0)
  random n s := (List.replicate n 0, s)
  choice l n _ s := (List.replicate n (l.headD 0), s)
  choiceIdx k n _ s := (List.replicate n (if s.1 < k then s.1 else 0), s)
  truncnorm a b n s := (List.replicate n (clipTo a b s.2.1), (s.1, s.2.2, s.2.1))
  truncnormEach l s := (l.map (·.1), s)

theorem tripleGen_lawful : LawfulGen tripleGen where
  random_length n s := by simp [tripleGen]
  random_range n s x hx := by
    rw [List.eq_of_mem_replicate hx]; norm_num
  choice_length l n p s h := by simp [tripleGen]
  choice_mem l n p s h x hx := by
    rw [List.eq_of_mem_replicate hx]
    cases l with
    | nil => exact absurd (validProbs_pos h) (by simp)
    | cons a l => simp
  choiceIdx_length k n p s h := by simp [tripleGen]
  choiceIdx_lt k n p s h i hi := by
    rw [List.eq_of_mem_replicate hi]
    split
    · assumption
    · exact validProbs_pos h
  truncnorm_length a b n s h := by simp [tripleGen]
  truncnorm_range a b n s h z hz := by
    rw [List.eq_of_mem_replicate hz]
    unfold clipTo
    split
    · assumption
    · exact ⟨le_rfl, fun b' hb => (h b' hb).le⟩
  each_length l s h := by simp [tripleGen]
  each_range l s h i p z hp hz := by
    simp only [tripleGen, List.getElem?_map, hp, Option.map_some, Option.some.injEq] at hz
    subst hz
    exact ⟨le_rfl, (h p (List.mem_of_getElem? hp)).le⟩

theorem clipTo_measurable (a : ℝ) (b : Option ℝ) : Measurable (clipTo a b) :=
  Measurable.ite (truncSet_measurable a b) measurable_id measurable_const

/-- The measure with a density. -/
noncomputable def withPdf (f : ℝ → ℝ) : Measure ℝ := volume.withDensity fun x => ENNReal.ofReal (f x)

theorem withPdf_set {f : ℝ → ℝ} (hi : Integrable f) (hn : ∀ x, 0 ≤ f x) (A : Set ℝ) (hA : MeasurableSet A) :
    withPdf f A = ENNReal.ofReal (∫ x in A, f x) := by
  unfold withPdf
  rw [withDensity_apply _ hA, ofReal_integral_eq_lintegral_ofReal hi.integrableOn (ae_of_all _ hn)]

theorem withPdf_prob {f : ℝ → ℝ} (hi : Integrable f) (hn : ∀ x, 0 ≤ f x) (h1 : ∫ x, f x = 1) :
    IsProbabilityMeasure (withPdf f) :=
  ⟨by rw [withPdf_set hi hn univ MeasurableSet.univ, setIntegral_univ, h1, ENNReal.ofReal_one]⟩

theorem std_pdf (a : ℝ) (b : Option ℝ) : (truncnormRv a b 0 1).pdf = truncStd a b := by
  funext x; rw [truncnormRv_pdf]; simp

/-- Clipped numbers have the same law. -/
theorem clip_law (a : ℝ) (b : Option ℝ) (h : ∀ b', b = some b' → a < b') :
    HasDensity (withPdf (truncStd a b)) (clipTo a b) (truncnormRv a b 0 1).pdf := by
  intro A hA
  have hd := truncnormRv_distribution a b 0 1 one_pos h
  rw [std_pdf] at hd ⊢
  rw [withPdf_set hd.integrable hd.nonneg _ (clipTo_measurable a b hA)]
  congr 1
  rw [truncStd_set, truncStd_set]
  congr 2
  have : clipTo a b ⁻¹' A ∩ truncSet a b = A ∩ truncSet a b := by
    ext z
    simp only [mem_inter_iff, mem_preimage]
    constructor
    · rintro ⟨h1, h2⟩
      rw [clipTo, if_pos h2] at h1
      exact ⟨h1, h2⟩
    · rintro ⟨h1, h2⟩
      rw [clipTo, if_pos h2]
      exact ⟨h1, h2⟩
  rw [this]

/-- For all speeds and fractions there is a generator, and a law of its start, that draw as
`C107_comet_draws` and `C107_asteroid_draws` assume. -/
theorem comet_draws_exist (c : SpeedCfg ℝ) (j l : ℝ) (hj : 0 ≤ j) (hl : 0 ≤ l) (hjl : 0 < j + l)
    (h1 : 0 < c.jfcSd) (h2 : 0 < c.lpcSd) (h3 : 0 < c.cometMin + c.cometMax) (n i : Nat) (hi : i < n) :
    ∃ (P : Measure (ℕ × ℝ × ℝ)) (start : ℕ × ℝ × ℝ → ℕ × ℝ × ℝ) (X : ℕ × ℝ × ℝ → ℕ)
      (Z₀ Z₁ : ℕ × ℝ × ℝ → ℝ),
      CometDraws tripleGen c [j / (j + l), l / (j + l)] n i start X Z₀ Z₁ ∧
      Measurable X ∧ Measurable Z₀ ∧ Measurable Z₁ ∧
      P (X ⁻¹' {0}) = ENNReal.ofReal (j / (j + l)) ∧ P (X ⁻¹' {1}) = ENNReal.ofReal (l / (j + l)) ∧
      HasDensity P Z₀ (truncnormRv (-c.cometMin / c.jfcSd) (some (c.cometMax / c.jfcSd)) 0 1).pdf ∧
      HasDensity P Z₁ (truncnormRv (-c.cometMin / c.lpcSd) (some (c.cometMax / c.lpcSd)) 0 1).pdf ∧
      IndepFun X Z₀ P ∧ IndepFun X Z₁ P := by
  have hlt : ∀ sd : ℝ, 0 < sd → ∀ b', some (c.cometMax / sd) = some b' → -c.cometMin / sd < b' := by
    intro sd hsd b' e
    injection e with e
    rw [← e]
    exact div_lt_div_of_pos_right (by linarith) hsd
  obtain ⟨a₀, ha₀⟩ : ∃ t, t = -c.cometMin / c.jfcSd := ⟨_, rfl⟩
  obtain ⟨b₀, hb₀⟩ : ∃ t, t = some (c.cometMax / c.jfcSd) := ⟨_, rfl⟩
  obtain ⟨a₁, ha₁⟩ : ∃ t, t = -c.cometMin / c.lpcSd := ⟨_, rfl⟩
  obtain ⟨b₁, hb₁⟩ : ∃ t, t = some (c.cometMax / c.lpcSd) := ⟨_, rfl⟩
  have H₀ : ∀ b', b₀ = some b' → a₀ < b' := by rw [ha₀, hb₀]; exact hlt _ h1
  have H₁ : ∀ b', b₁ = some b' → a₁ < b' := by rw [ha₁, hb₁]; exact hlt _ h2
  have d₀ := truncnormRv_distribution a₀ b₀ 0 1 one_pos H₀
  have d₁ := truncnormRv_distribution a₁ b₁ 0 1 one_pos H₁
  rw [std_pdf] at d₀ d₁
  have p₀ := withPdf_prob d₀.integrable d₀.nonneg d₀.total
  have p₁ := withPdf_prob d₁.integrable d₁.nonneg d₁.total
  obtain ⟨μ, hμ⟩ : ∃ t : Measure ℕ, t = ENNReal.ofReal (j / (j + l)) • Measure.dirac 0 +
    ENNReal.ofReal (l / (j + l)) • Measure.dirac 1 := ⟨_, rfl⟩
  have hw : ENNReal.ofReal (j / (j + l)) + ENNReal.ofReal (l / (j + l)) = 1 := by
    rw [← ENNReal.ofReal_add (by positivity) (by positivity), ← add_div, div_self hjl.ne', ENNReal.ofReal_one]
  have pμ : IsProbabilityMeasure μ := ⟨by rw [hμ]; simp [hw]⟩
  have hμ0 : ∀ A : Set ℕ, μ A = ENNReal.ofReal (j / (j + l)) * A.indicator 1 0 +
      ENNReal.ofReal (l / (j + l)) * A.indicator 1 1 := by
    intro A
    rw [hμ]
    simp
  obtain ⟨x, hx⟩ : ∃ x : ℕ → ℕ, x = fun k => if k < 2 then k else 0 := ⟨_, rfl⟩
  have mx : Measurable x := measurable_from_top
  refine ⟨μ.prod ((withPdf (truncStd a₀ b₀)).prod (withPdf (truncStd a₁ b₁))), id, fun ω => x ω.1,
    fun ω => clipTo a₀ b₀ ω.2.1, fun ω => clipTo a₁ b₁ ω.2.2, ⟨?_, ?_, ?_⟩, mx.comp measurable_fst,
    (clipTo_measurable _ _).comp (measurable_fst.comp measurable_snd),
    (clipTo_measurable _ _).comp (measurable_snd.comp measurable_snd), ?_, ?_, ?_, ?_, ?_, ?_⟩
  · intro ω; simp [tripleGen, hi, hx]
  · intro ω; simp [tripleGen, hi, ha₀, hb₀]
  · intro ω; simp [tripleGen, hi, ha₁, hb₁]
  · have e : (fun ω : ℕ × ℝ × ℝ => x ω.1) ⁻¹' {0} = (x ⁻¹' {0}) ×ˢ univ := by ext; simp
    rw [e, Measure.prod_prod, measure_univ, mul_one, hμ0]
    simp [hx]
  · have e : (fun ω : ℕ × ℝ × ℝ => x ω.1) ⁻¹' {1} = (x ⁻¹' {1}) ×ˢ univ := by ext; simp
    rw [e, Measure.prod_prod, measure_univ, mul_one, hμ0]
    simp [hx]
  · intro A hA
    have e : (fun ω : ℕ × ℝ × ℝ => clipTo a₀ b₀ ω.2.1) ⁻¹' A =
      univ ×ˢ ((clipTo a₀ b₀ ⁻¹' A) ×ˢ univ) := by ext; simp
    rw [e, Measure.prod_prod, measure_univ, one_mul, Measure.prod_prod, measure_univ, mul_one,
      clip_law a₀ b₀ H₀ A hA, ha₀, hb₀]
  · intro A hA
    have e : (fun ω : ℕ × ℝ × ℝ => clipTo a₁ b₁ ω.2.2) ⁻¹' A =
      univ ×ˢ (univ ×ˢ (clipTo a₁ b₁ ⁻¹' A)) := by ext; simp
    rw [e, Measure.prod_prod, measure_univ, one_mul, Measure.prod_prod, measure_univ, one_mul,
      clip_law a₁ b₁ H₁ A hA, ha₁, hb₁]
  · exact indepFun_prod mx ((clipTo_measurable a₀ b₀).comp measurable_fst)
  · exact indepFun_prod mx ((clipTo_measurable a₁ b₁).comp measurable_snd)

end MoonPIES
