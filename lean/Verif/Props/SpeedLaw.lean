import Verif.Lemmas.SpeedLaw
import Verif.Lemmas.Impact
import Verif.Props.Random
import Mathlib.Probability.Independence.Basic

/-!
# C107: distributions of impact speeds
-/

namespace MoonPIES

open MeasureTheory Set Spec ProbabilityTheory

/-- **C107** the functions of `asteroid_speed_rv` belong to one distribution, without speeds below the
escape speed. -/
theorem C107_asteroid (c : SpeedCfg ℝ) (h : 0 < c.speedSd) :
    Distribution (asteroidRv c).pdf (asteroidRv c).cdf (asteroidRv c).sf ∧
    (asteroidRv c).cdf c.escapeVel = 0 := by
  have hd := truncnormRv_distribution ((c.escapeVel - c.speedMean) / c.speedSd) none c.speedMean c.speedSd h
    (fun b' e => by cases e)
  refine ⟨hd, ?_⟩
  unfold asteroidRv truncnormRv
  simp

/-- **C107** the functions of `comet_speed_rv` belong to one distribution. -/
theorem C107_comet (c : SpeedCfg ℝ) (j l : ℝ) (hj : 0 ≤ j) (hl : 0 ≤ l) (hjl : 0 < j + l)
    (h1 : 0 < c.jfcSd) (h2 : 0 < c.lpcSd) (h3 : 0 < c.cometMin + c.cometMax) :
    ∃ m, cometRv c j l = .ok m ∧ Distribution m.pdf m.cdf m.sf := by
  have hs : ([j, l] : List ℝ).sum = j + l := by simp
  obtain ⟨m, hm, e1, e2, e3, e4⟩ := (C31_weights [truncnormRv (-c.cometMin / c.jfcSd)
    (some (c.cometMax / c.jfcSd)) c.jfcMean c.jfcSd, truncnormRv (-c.cometMin / c.lpcSd)
    (some (c.cometMax / c.lpcSd)) c.lpcMean c.lpcSd] [j, l]).2 rfl (by rw [hs]; exact hjl)
  refine ⟨m, hm, mixture_distribution m (by rw [e2, e1]) ?_ e3 ?_⟩
  · intro w hw
    obtain ⟨i, hi⟩ := List.mem_iff_getElem?.1 hw
    have hlt : i < 2 := by
      have := (List.getElem?_eq_some_iff.1 hi).1
      rw [e2] at this
      exact this
    interval_cases i
    · rw [e4 0 j rfl] at hi
      injection hi with hi
      rw [← hi, hs]
      positivity
    · rw [e4 1 l rfl] at hi
      injection hi with hi
      rw [← hi, hs]
      positivity
  · rw [e1]
    intro s hs
    have hlt : ∀ sd : ℝ, 0 < sd → ∀ b', some (c.cometMax / sd) = some b' → -c.cometMin / sd < b' := by
      intro sd hsd b' e
      injection e with e
      rw [← e]
      exact div_lt_div_of_pos_right (by linarith) hsd
    simp only [List.mem_cons, List.not_mem_nil, or_false] at hs
    rcases hs with rfl | rfl
    · exact truncnormRv_distribution _ _ _ _ h1 (hlt _ h1)
    · exact truncnormRv_distribution _ _ _ _ h2 (hlt _ h2)

/-- Scaled and moved draws of a standard truncated normal distribution. -/
theorem law_std {Ω : Type} [MeasurableSpace Ω] (P : Measure Ω) (Z : Ω → ℝ) (a : ℝ) (b : Option ℝ)
    (loc scale : ℝ) (hs : 0 < scale) (h : HasDensity P Z (truncnormRv a b 0 1).pdf) :
    HasDensity P (fun ω => loc + scale * Z ω) (truncnormRv a b loc scale).pdf := by
  intro A hA
  have hB : MeasurableSet {y : ℝ | loc + scale * y ∈ A} :=
    (measurable_const.add (measurable_const.mul measurable_id)) hA
  have := h _ hB
  rw [show (fun ω => loc + scale * Z ω) ⁻¹' A = Z ⁻¹' {y | loc + scale * y ∈ A} from rfl, this]
  congr 1
  have e1 : (truncnormRv a b loc scale).pdf = fun x => truncStd a b ((x - loc) / scale) / scale := by
    funext x; exact truncnormRv_pdf a b loc scale x
  have e2 : (truncnormRv a b 0 1).pdf = truncStd a b := by
    funext x; rw [truncnormRv_pdf]; simp
  rw [e1, e2, integral_std_set _ _ _ hs _ hA]

/-- **C107** asteroid speeds drawn by a run have the density of `asteroid_speed_rv`, if the generator
draws standard truncated normal numbers. -/
theorem C107_asteroid_draws {σ Ω : Type} [MeasurableSpace Ω] (P : Measure Ω) (g : Gen σ) (c : SpeedCfg ℝ)
    (hsd : 0 < c.speedSd) (n i : Nat) (start : Ω → σ) (Z : Ω → ℝ)
    (hZ : ∀ ω, (g.truncnorm ((c.escapeVel - c.speedMean) / c.speedSd) none n (start ω)).1[i]? = some (Z ω))
    (law : HasDensity P Z (truncnormRv ((c.escapeVel - c.speedMean) / c.speedSd) none 0 1).pdf) :
    ∃ V : Ω → ℝ, HasDensity P V (asteroidRv c).pdf ∧
      ∀ ω, ∃ vs s, asteroidSpeeds g c n (start ω) = .ok (vs, s) ∧ vs[i]? = some (V ω) := by
  refine ⟨_, law_std P Z _ _ c.speedMean c.speedSd hsd law, ?_⟩
  intro ω
  refine ⟨_, _, by
    unfold asteroidSpeeds truncnormRvs
    rw [if_neg hsd.ne', if_pos ⟨nofun, hsd.le⟩], ?_⟩
  rw [List.getElem?_map, hZ]
  rfl

/-- The law of the chosen one of two independent numbers. -/
theorem law_choice {Ω : Type} [MeasurableSpace Ω] (P : Measure Ω) (X : Ω → Nat) (Y : Nat → Ω → ℝ)
    (f : Nat → ℝ → ℝ) (w : Nat → ℝ) (hX : ∀ ω, X ω < 2) (hw : ∀ k < 2, 0 ≤ w k)
    (hf : ∀ k < 2, Integrable (f k) ∧ ∀ x, 0 ≤ f k x)
    (hXm : Measurable X) (hYm : ∀ k < 2, Measurable (Y k))
    (hP : ∀ k < 2, P (X ⁻¹' {k}) = ENNReal.ofReal (w k))
    (hY : ∀ k < 2, HasDensity P (Y k) (f k))
    (hind : ∀ k < 2, IndepFun X (Y k) P) :
    HasDensity P (fun ω => Y (X ω) ω) (fun x => f 0 x * w 0 + (f 1 x * w 1 + 0)) := by
  intro A hA
  have hsplit : (fun ω => Y (X ω) ω) ⁻¹' A = (X ⁻¹' {0} ∩ Y 0 ⁻¹' A) ∪ (X ⁻¹' {1} ∩ Y 1 ⁻¹' A) := by
    ext ω
    have := hX ω
    simp only [mem_preimage, mem_union, mem_inter_iff, mem_singleton_iff]
    interval_cases hx : X ω <;> simp
  have hdisj : Disjoint (X ⁻¹' {0} ∩ Y 0 ⁻¹' A) (X ⁻¹' {1} ∩ Y 1 ⁻¹' A) := by
    rw [Set.disjoint_left]
    rintro ω ⟨h1, -⟩ ⟨h2, -⟩
    simp only [mem_preimage, mem_singleton_iff] at h1 h2
    omega
  have hm : ∀ k < 2, MeasurableSet (X ⁻¹' {k} ∩ Y k ⁻¹' A) := fun k hk =>
    (hXm (measurableSet_singleton k)).inter (hYm k hk hA)
  have hprod : ∀ k < 2, P (X ⁻¹' {k} ∩ Y k ⁻¹' A) = ENNReal.ofReal (w k * ∫ x in A, f k x) := by
    intro k hk
    rw [(hind k hk).measure_inter_preimage_eq_mul _ _ (measurableSet_singleton k) hA, hP k hk, hY k hk A hA,
      ENNReal.ofReal_mul (hw k hk)]
  rw [hsplit, measure_union hdisj (hm 1 (by norm_num)), hprod 0 (by norm_num), hprod 1 (by norm_num),
    ← ENNReal.ofReal_add]
  · congr 1
    have i0 := (hf 0 (by norm_num)).1
    have i1 := (hf 1 (by norm_num)).1
    simp only [add_zero]
    rw [integral_add (i0.mul_const _).integrableOn (i1.mul_const _).integrableOn, integral_mul_const,
      integral_mul_const]
    ring
  · exact mul_nonneg (hw 0 (by norm_num)) (integral_nonneg fun x => (hf 0 (by norm_num)).2 x)
  · exact mul_nonneg (hw 1 (by norm_num)) (integral_nonneg fun x => (hf 1 (by norm_num)).2 x)

/-- The draws of `comet_speed_rv(cfg).rvs` for value `i`: index of the submodel, then a standard number
for each submodel. -/
structure CometDraws {σ Ω : Type} (g : Gen σ) (c : SpeedCfg ℝ) (w : List ℝ) (n i : Nat) (start : Ω → σ)
    (X : Ω → Nat) (Z₀ Z₁ : Ω → ℝ) : Prop where
  choice : ∀ ω, (g.choiceIdx 2 n w (start ω)).1[i]? = some (X ω)
  jfc : ∀ ω, (g.truncnorm (-c.cometMin / c.jfcSd) (some (c.cometMax / c.jfcSd)) n
    (g.choiceIdx 2 n w (start ω)).2).1[i]? = some (Z₀ ω)
  lpc : ∀ ω, (g.truncnorm (-c.cometMin / c.lpcSd) (some (c.cometMax / c.lpcSd)) n
    (g.truncnorm (-c.cometMin / c.jfcSd) (some (c.cometMax / c.jfcSd)) n
      (g.choiceIdx 2 n w (start ω)).2).2).1[i]? = some (Z₁ ω)

/-- **C107** comet speeds drawn by a run have the density of `comet_speed_rv`, if the generator chooses
submodels with the given probabilities and independently draws standard truncated normal numbers. -/
theorem C107_comet_draws {σ Ω : Type} [MeasurableSpace Ω] (P : Measure Ω) (g : Gen σ) (hg : LawfulGen g)
    (c : SpeedCfg ℝ) (j l : ℝ) (hj : 0 ≤ j) (hl : 0 ≤ l) (hjl : 0 < j + l)
    (h1 : 0 < c.jfcSd) (h2 : 0 < c.lpcSd) (h3 : 0 < c.cometMin + c.cometMax)
    (n i : Nat) (start : Ω → σ) (X : Ω → Nat) (Z₀ Z₁ : Ω → ℝ)
    (hd : CometDraws g c [j / (j + l), l / (j + l)] n i start X Z₀ Z₁)
    (hX : Measurable X) (hZ₀ : Measurable Z₀) (hZ₁ : Measurable Z₁)
    (lawX₀ : P (X ⁻¹' {0}) = ENNReal.ofReal (j / (j + l)))
    (lawX₁ : P (X ⁻¹' {1}) = ENNReal.ofReal (l / (j + l)))
    (law₀ : HasDensity P Z₀ (truncnormRv (-c.cometMin / c.jfcSd) (some (c.cometMax / c.jfcSd)) 0 1).pdf)
    (law₁ : HasDensity P Z₁ (truncnormRv (-c.cometMin / c.lpcSd) (some (c.cometMax / c.lpcSd)) 0 1).pdf)
    (ind₀ : IndepFun X Z₀ P) (ind₁ : IndepFun X Z₁ P) :
    ∃ m V, cometRv c j l = .ok m ∧ HasDensity P V m.pdf ∧
      ∀ ω, ∃ vs s, cometSpeeds g c j l n (start ω) = .ok (vs, s) ∧ vs[i]? = some (V ω) := by
  have hlt : ∀ sd : ℝ, 0 < sd → ∀ b', some (c.cometMax / sd) = some b' → -c.cometMin / sd < b' := by
    intro sd hsd b' e
    injection e with e
    rw [← e]
    exact div_lt_div_of_pos_right (by linarith) hsd
  have vp : ValidProbs 2 [j / (j + l), l / (j + l)] := by
    refine ⟨rfl, ?_, ?_⟩
    · intro x hx
      simp only [List.mem_cons, List.not_mem_nil, or_false] at hx
      rcases hx with rfl | rfl <;> positivity
    · simp only [List.sum_cons, List.sum_nil, add_zero]
      field_simp
  have hXlt : ∀ ω, X ω < 2 := by
    intro ω
    exact hg.choiceIdx_lt 2 n _ (start ω) vp _ (List.mem_of_getElem? (hd.choice ω))
  obtain ⟨f₀, hf₀⟩ : ∃ t, t = truncnormRv (-c.cometMin / c.jfcSd) (some (c.cometMax / c.jfcSd)) c.jfcMean c.jfcSd :=
    ⟨_, rfl⟩
  obtain ⟨f₁, hf₁⟩ : ∃ t, t = truncnormRv (-c.cometMin / c.lpcSd) (some (c.cometMax / c.lpcSd)) c.lpcMean c.lpcSd :=
    ⟨_, rfl⟩
  have d₀ : Distribution f₀.pdf f₀.cdf f₀.sf := hf₀ ▸ truncnormRv_distribution _ _ _ _ h1 (hlt _ h1)
  have d₁ : Distribution f₁.pdf f₁.cdf f₁.sf := hf₁ ▸ truncnormRv_distribution _ _ _ _ h2 (hlt _ h2)
  have hm : cometRv c j l = .ok ⟨[f₀, f₁], [j / (j + l), l / (j + l)]⟩ := by
    unfold cometRv mkMixture
    rw [← hf₀, ← hf₁]
    simp [hjl.ne']
  have two : ∀ p : Nat → Prop, p 0 → p 1 → ∀ k < 2, p k := by
    intro p p0 p1 k hk
    interval_cases k
    · exact p0
    · exact p1
  have key := law_choice P X (fun k ω => if k = 0 then c.jfcMean + c.jfcSd * Z₀ ω else c.lpcMean + c.lpcSd * Z₁ ω)
    (fun k => if k = 0 then f₀.pdf else f₁.pdf) (fun k => if k = 0 then j / (j + l) else l / (j + l)) hXlt
    (two _ (by simp only [if_true]; positivity) (by simp only [one_ne_zero, if_false]; positivity))
    (two _ ⟨d₀.integrable, d₀.nonneg⟩ ⟨d₁.integrable, d₁.nonneg⟩) hX
    (two _ (measurable_const.add (measurable_const.mul hZ₀)) (measurable_const.add (measurable_const.mul hZ₁)))
    (two _ lawX₀ lawX₁)
    (two _ (hf₀ ▸ law_std P Z₀ _ _ _ _ h1 law₀) (hf₁ ▸ law_std P Z₁ _ _ _ _ h2 law₁))
    (two _ (ind₀.comp measurable_id (measurable_const.add (measurable_const.mul measurable_id)))
      (ind₁.comp measurable_id (measurable_const.add (measurable_const.mul measurable_id))))
  refine ⟨_, _, hm, key, ?_⟩
  intro ω
  obtain ⟨r, hr⟩ : ∃ t, t = g.choiceIdx 2 n [j / (j + l), l / (j + l)] (start ω) := ⟨_, rfl⟩
  obtain ⟨q₀, hq₀⟩ : ∃ t, t = g.truncnorm (-c.cometMin / c.jfcSd) (some (c.cometMax / c.jfcSd)) n r.2 := ⟨_, rfl⟩
  obtain ⟨q₁, hq₁⟩ : ∃ t, t = g.truncnorm (-c.cometMin / c.lpcSd) (some (c.cometMax / c.lpcSd)) n q₀.2 := ⟨_, rfl⟩
  have hc := hd.choice ω
  have h₀ := hd.jfc ω
  have h₁ := hd.lpc ω
  rw [← hr, ← hq₀] at h₁
  rw [← hr] at hc h₀
  rw [← hq₀] at h₀
  rw [← hq₁] at h₁
  have lr : r.1.length = n := hr ▸ hg.choiceIdx_length 2 n _ _ vp
  have l₀ : q₀.1.length = n := hq₀ ▸ hg.truncnorm_length _ _ n _ (hlt _ h1)
  have l₁ : q₁.1.length = n := hq₁ ▸ hg.truncnorm_length _ _ n _ (hlt _ h2)
  obtain ⟨out, e1, e2, e3⟩ := C31_samples r.1 [q₀.1.map fun z => c.jfcMean + c.jfcSd * z,
      q₁.1.map fun z => c.lpcMean + c.lpcSd * z]
    (by
      intro k hk
      rw [hr] at hk
      exact hg.choiceIdx_lt 2 n _ (start ω) vp k hk)
    (by
      intro col hcol
      simp only [List.mem_cons, List.not_mem_nil, or_false] at hcol
      rcases hcol with rfl | rfl
      · rw [List.length_map, l₀, lr]
      · rw [List.length_map, l₁, lr])
  refine ⟨out, q₁.2, ?_, ?_⟩
  · unfold cometSpeeds truncnormRvs
    rw [if_neg h1.ne', if_neg h2.ne', if_neg hjl.ne']
    simp only []
    rw [if_pos vp, if_pos ⟨hlt _ h1, h1.le⟩]
    simp only [bind, Except.bind]
    rw [if_pos ⟨hlt _ h2, h2.le⟩]
    subst hq₁ hq₀ hr
    exact congrArg (fun t => Except.bind t fun v => Except.ok (v, _)) e1
  · have hi : i < out.length := by
      rw [e2]; exact (List.getElem?_eq_some_iff.1 hc).1
    obtain ⟨col, f1, f2⟩ := e3 i (X ω) _ hc (List.getElem?_eq_getElem hi)
    rw [List.getElem?_eq_getElem hi]
    have hx := hXlt ω
    by_cases h0 : X ω = 0
    · rw [h0] at f1
      injection f1 with f1
      rw [← f1, List.getElem?_map, h₀] at f2
      rw [if_pos h0]
      exact f2.symm
    · have h1' : X ω = 1 := by omega
      rw [h1'] at f1
      injection f1 with f1
      rw [← f1, List.getElem?_map, h₁] at f2
      rw [if_neg h0]
      exact f2.symm

/-- Some values are above any point below the upper end. -/
theorem truncnormRv_lt_one (a b loc scale x : ℝ) (h : a < b) (hx : (x - loc) / scale < b) :
    (truncnormRv a (some b) loc scale).cdf x < 1 := by
  have hm := truncMass_pos a (some b) (fun b' e => by injection e with e; rw [← e]; exact h)
  simp only [truncnormRv]
  split
  · norm_num
  · rw [if_neg (by rintro ⟨b', e, hb⟩; injection e with e; linarith), div_lt_one hm]
    have : 0 < normCdf b - normCdf ((x - loc) / scale) := by
      rw [normCdf_sub hx.le]
      apply normPdf_set_pos
      rw [Real.volume_Ioc]
      simpa using hx
    change _ < normCdf b - _
    linarith

/-- **C107** the full claim would be that the figure shows the whole distribution.  Its axis ends at
`comet_speed_max`, but there are always faster comets. -/
theorem C107_shown_refuted (c : SpeedCfg ℝ) (j l : ℝ) (hj : 0 ≤ j) (hl : 0 ≤ l) (hjl : 0 < j + l)
    (h1 : 0 < c.jfcSd) (h2 : 0 < c.lpcSd) (h3 : 0 < c.cometMin + c.cometMax)
    (h4 : 0 < c.jfcMean) (h5 : 0 < c.lpcMean) :
    ∃ m, cometRv c j l = .ok m ∧ m.cdf c.cometMax < 1 := by
  have hlt : ∀ sd : ℝ, 0 < sd → -c.cometMin / sd < c.cometMax / sd := by
    intro sd hsd
    exact div_lt_div_of_pos_right (by linarith) hsd
  have k1 := truncnormRv_lt_one _ _ c.jfcMean c.jfcSd c.cometMax (hlt _ h1)
    (div_lt_div_of_pos_right (by linarith) h1)
  have k2 := truncnormRv_lt_one _ _ c.lpcMean c.lpcSd c.cometMax (hlt _ h2)
    (div_lt_div_of_pos_right (by linarith) h2)
  refine ⟨⟨_, [j / (j + l), l / (j + l)]⟩, by unfold cometRv mkMixture; simp [hjl.ne']; rfl, ?_⟩
  unfold Mixture.cdf
  simp only [List.map_cons, List.map_nil, weightedSum_cons]
  rw [show weightedSum ([] : List ℝ) [] = 0 from rfl]
  have hs : j / (j + l) + l / (j + l) = 1 := by field_simp
  have w1 : 0 ≤ j / (j + l) := by positivity
  have w2 : 0 ≤ l / (j + l) := by positivity
  rcases hj.lt_or_eq with hj' | hj'
  · have : 0 < j / (j + l) := by positivity
    nlinarith
  · have : 0 < l / (j + l) := by
      apply div_pos _ hjl
      linarith
    nlinarith

/-- The default speeds meet the hypotheses. -/
example : let c := (RunCfg.default 1).speed
    0 < c.speedSd ∧ 0 < c.jfcSd ∧ 0 < c.lpcSd ∧ 0 < c.cometMin + c.cometMax ∧ 0 < c.jfcMean ∧
      0 < c.lpcMean ∧ 0 ≤ (RunCfg.default 1).jfc_frac ∧ 0 ≤ (RunCfg.default 1).lpc_frac ∧
      0 < (RunCfg.default 1).jfc_frac + (RunCfg.default 1).lpc_frac := by
  simp only [RunCfg.speed, RunCfg.default]
  norm_num

end MoonPIES
