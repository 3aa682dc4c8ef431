import Verif.Lemmas.AgeFig
import Verif.Props.RngArg
import Verif.Lemmas.Shipped

/-!
# C104: the figure of random crater ages
-/

namespace MoonPIES

open Spec

variable {σ : Type}

theorem column_map {α β : Type} (L : List α) (f : α → List β) (h : α → β) (j : Nat)
    (hf : ∀ a ∈ L, (f a)[j]? = some (h a)) : column (L.map f) j = L.map h := by
  unfold column
  rw [List.filterMap_map]
  induction L with
  | nil => rfl
  | cons a L ih =>
    rw [List.filterMap_cons_some (b := h a) (by simpa using hf a (by simp)), List.map_cons,
      ih (fun b hb => hf b (by simp [hb]))]

/-- **C104** the upper panel: for each crater, under its name, a histogram of its ages in 100 runs; the
run with seed 0 has a seed that is drawn. -/
theorem C104_upper (g : Gen σ) (hg : LawfulGen g) (c : RunCfg) (d : RunData)
    (hc : CratersOK d.craters) (hs : SortDesc d.sortAges) (hts : c.timestep = 1e7) (draw : Int) :
    ∃ hs, ageFigTop g c d draw = .ok hs ∧ hs.length = d.craters.length ∧
      ∀ (j : Nat) raw, d.craters[j]? = some raw → ∃ h ms, hs[j]? = some (raw.cname, h) ∧
        AgeHist ms h ∧ ms.length = 100 ∧
        ∀ (i : Nat) m, ms[i]? = some m → ∃ z, (g.truncnormEach (d.craters.map ageRange)
          (g.init (if i = 0 then draw else i))).1[j]? = some z ∧ AgeDrawn raw raw.age z m := by
  obtain ⟨zs, hz⟩ : ∃ zs : Nat → List ℝ, ∀ i, zs i = (g.truncnormEach (d.craters.map ageRange)
      (g.init (if (i : Int) = 0 then draw else i))).1 := ⟨_, fun _ => rfl⟩
  have hrun := fun i : Nat => ageFigRun_ok g hg c d hc (fun l => (hs l).1) hts draw i (zs i) (hz i)
  unfold ageFigTop
  rw [mapM_eq_map _ _ _ (fun i _ => (hrun i).2)]
  refine ⟨_, rfl, by simp, ?_⟩
  intro j raw hj
  have hjl := (List.getElem?_eq_some_iff.1 hj).1
  have hzj : ∀ i, (zs i)[j]? = some ((zs i)[j]'(by rw [(hrun i).1]; exact hjl)) :=
    fun i => List.getElem?_eq_getElem _
  refine ⟨_, (List.range 100).map fun i => ageUnits raw raw.age ((zs i)[j]'(by rw [(hrun i).1]; exact hjl)),
    by rw [List.getElem?_map, List.getElem?_zipIdx, hj]; rfl, ?_, by simp, ?_⟩
  · simp only [Nat.zero_add, List.map_map]
    rw [column_map _ _ (fun i => (ageUnits raw raw.age ((zs i)[j]'(by rw [(hrun i).1]; exact hjl)) : ℝ) / 100)]
    · have := ageHist_of ((List.range 100).map fun i => ageUnits raw raw.age
        ((zs i)[j]'(by rw [(hrun i).1]; exact hjl)))
      rw [List.map_map] at this
      exact this
    · intro i _
      simp only [Function.comp]
      rw [List.getElem?_zipWith, hj, hzj i]
  · intro i m hm
    rw [List.getElem?_map] at hm
    obtain ⟨i', hi, rfl⟩ := Option.map_eq_some_iff.1 hm
    obtain ⟨hi1, hi2⟩ := List.getElem?_eq_some_iff.1 hi
    rw [List.getElem_range] at hi2
    subst hi2
    refine ⟨_, ?_, ageUnits_drawn _ _ _⟩
    have := hzj i
    rw [← this, hz]
    simp

/-- The draws of the lower panel. -/
theorem ageFigDraws_ok (g : Gen σ) (hg : LawfulGen g) (c : RunCfg) (craters : List RawCrater)
    (hc : CratersOK craters) (hts : c.timestep = 1e7) (z₀ : List ℝ) (hz₀ : z₀.length = craters.length)
    (n : Nat) : ∃ s, ageFigDraws g c (List.zipWith rowAged craters z₀) n = .ok s ∧
      ∀ (j : Nat) raw z, craters[j]? = some raw → z₀[j]? = some z →
        ∃ ms : List Int, column s j = ms.map (fun m : Int => (m : ℝ) / 100) ∧ ms.length = n ∧
          ∀ (i : Nat) m, ms[i]? = some m → ∃ w, (g.truncnormEach
            (List.replicate n (craters.map ageRange)).flatten (g.init c.seed)).1[i * craters.length + j]? =
              some w ∧ AgeDrawn raw ((ageUnits raw raw.age z : ℝ) / 100) w m := by
  obtain ⟨df, hdf⟩ : ∃ t, t = List.zipWith rowAged craters z₀ := ⟨_, rfl⟩
  have hlen : df.length = craters.length := by rw [hdf, List.length_zipWith]; omega
  have hget : ∀ (j : Nat) raw z, craters[j]? = some raw → z₀[j]? = some z → df[j]? = some (rowAged raw z) := by
    intro j raw z h1 h2
    rw [hdf, List.getElem?_zipWith, h1, h2]
  have hsame : ∀ raw z, sigOf (rowAged raw z) = sigOf (readRow false "no" raw) ∧
      truncA (rowAged raw z) = truncA (readRow false "no" raw) ∧
      truncB (rowAged raw z) = truncB (readRow false "no" raw) := fun _ _ => ⟨rfl, rfl, rfl⟩
  have hmem : ∀ r ∈ df, ∃ raw ∈ craters, ∃ z, r = rowAged raw z := by
    intro r hr
    rw [hdf] at hr
    obtain ⟨j, hj⟩ := List.mem_iff_getElem?.1 hr
    rw [List.getElem?_zipWith] at hj
    cases h1 : craters[j]? with
    | none => rw [h1] at hj; cases hj
    | some raw =>
      cases h2 : z₀[j]? with
      | none => rw [h1, h2] at hj; cases hj
      | some z =>
        rw [h1, h2] at hj
        injection hj with hj
        exact ⟨raw, List.mem_of_getElem? h1, z, hj.symm⟩
  have hb : ∀ r ∈ df, 0 < sigOf r ∧ truncA r < truncB r := by
    intro r hr
    obtain ⟨raw, h1, z, rfl⟩ := hmem r hr
    obtain ⟨e1, e2, e3⟩ := hsame raw z
    rw [e1, e2, e3]
    exact craters_bounds hc _ (List.mem_map.2 ⟨raw, h1, rfl⟩)
  have hrange : df.map (fun r => (truncA r, truncB r)) = craters.map ageRange := by
    rw [← craters_ranges hc, List.map_map]
    apply List.ext_getElem?
    intro j
    rw [List.getElem?_map, List.getElem?_map]
    rcases Nat.lt_or_ge j craters.length with h | h
    · rw [hget j _ _ (List.getElem?_eq_getElem h)
        (List.getElem?_eq_getElem (show j < z₀.length by omega)), List.getElem?_eq_getElem h]
      rfl
    · rw [List.getElem?_eq_none (by omega), List.getElem?_eq_none h]; rfl
  rw [← hdf]
  unfold ageFigDraws
  rw [if_pos hb, hrange, hts]
  obtain ⟨zs, hzs⟩ : ∃ t, t = (g.truncnormEach
    (List.replicate n (craters.map ageRange)).flatten (g.init c.seed)).1 := ⟨_, rfl⟩
  have hzl : zs.length = n * craters.length := by
    rw [hzs, hg.each_length]
    · simp [List.length_flatten]
    · intro p hp
      obtain ⟨l, hl, hp⟩ := List.mem_flatten.1 hp
      rw [(List.mem_replicate.1 hl).2] at hp
      exact ranges_lt hc p hp
  refine ⟨_, rfl, ?_⟩
  intro j raw z h1 h2
  rw [← hzs]
  refine ⟨(List.range n).map fun i => ageUnits raw ((ageUnits raw raw.age z : ℝ) / 100)
    (zs.getD (i * df.length + j) 0), ?_, by simp, ?_⟩
  · rw [List.map_map]
    apply column_map
    intro i _
    rw [List.getElem?_map, List.getElem?_zipIdx, hget j raw z h1 h2]
    simp only [Option.map_some, Option.some.injEq, Nat.zero_add, Function.comp]
    rw [(hsame raw z).1, sigOf_read]
    unfold roundToTs
    have e : (rowAged raw z).age = (ageUnits raw raw.age z : ℝ) / 100 * 1e9 := by
      simp only [rowAged]; norm_num; ring
    rw [e]
    change ((ageUnits raw ((ageUnits raw raw.age z : ℝ) / 100) (zs.getD (i * df.length + j) 0) : ℝ) *
      1e7) / 1e9 = _
    norm_num
    ring
  · intro i m hm
    rw [List.getElem?_map] at hm
    obtain ⟨i', hi, rfl⟩ := Option.map_eq_some_iff.1 hm
    obtain ⟨hi1, hi2⟩ := List.getElem?_eq_some_iff.1 hi
    rw [List.getElem_range] at hi2
    subst hi2
    rw [List.length_range] at hi1
    refine ⟨_, ?_, ageUnits_drawn _ _ _⟩
    rw [hlen]
    have : i * craters.length + j < zs.length := by
      rw [hzl]
      have hjl := (List.getElem?_eq_some_iff.1 h1).1
      calc i * craters.length + j < i * craters.length + craters.length := by omega
        _ = (i + 1) * craters.length := by ring
        _ ≤ n * craters.length := Nat.mul_le_mul_right _ hi1
    rw [List.getD_eq_getElem?_getD, List.getElem?_eq_getElem this]
    rfl

/-- **C104** the lower panel: each histogram has 100000 ages drawn around the age of the crater in the
run with seed 99, not around its listed age; the inset has those below 3 billion years. -/
theorem C104_lower (g : Gen σ) (hg : LawfulGen g) (c : RunCfg) (d : RunData)
    (hc : CratersOK d.craters) (hs : SortDesc d.sortAges) (hts : c.timestep = 1e7) (draw : Int) :
    ∃ hs, ageFigBottom g c d draw = .ok hs ∧ hs.length = d.craters.length ∧
      ∀ (j : Nat) raw, d.craters[j]? = some raw → ∃ h inset ms z₀ m₀, hs[j]? = some (h, inset) ∧
        (g.truncnormEach (d.craters.map ageRange) (g.init 99)).1[j]? = some z₀ ∧
        AgeDrawn raw raw.age z₀ m₀ ∧
        AgeHist ms h ∧ ms.length = 100000 ∧
        (∀ (i : Nat) m, ms[i]? = some m → ∃ z, (g.truncnormEach
          (List.replicate 100000 (d.craters.map ageRange)).flatten (g.init 99)).1[i * d.craters.length + j]? =
            some z ∧ AgeDrawn raw ((m₀ : ℝ) / 100) z m) ∧
        (inset = none ↔ ∀ m ∈ ms, 300 ≤ m) ∧
        ∀ h', inset = some h' → AgeHist (ms.filter fun m => m < 300) h' := by
  obtain ⟨z₀, hz₀⟩ : ∃ t, t = (g.truncnormEach (d.craters.map ageRange)
    (g.init (if (99 : Int) = 0 then draw else 99))).1 := ⟨_, rfl⟩
  obtain ⟨hl, hrun⟩ := ageFigRun_ok g hg c d hc (fun l => (hs l).1) hts draw 99 z₀ hz₀
  obtain ⟨s, hS, hcol⟩ := ageFigDraws_ok g hg (c.reseed draw 99) d.craters hc hts z₀ hl 100000
  rw [if_neg (by norm_num)] at hz₀
  unfold ageFigBottom
  rw [hrun]
  simp only [bind, Except.bind, hS]
  refine ⟨_, rfl, by simp, ?_⟩
  intro j raw hj
  have hjl := (List.getElem?_eq_some_iff.1 hj).1
  have hz : z₀[j]? = some (z₀[j]'(by rw [hl]; exact hjl)) := List.getElem?_eq_getElem _
  obtain ⟨ms, h1, h2, h3⟩ := hcol j raw _ hj hz
  refine ⟨_, _, ms, _, ageUnits raw raw.age (z₀[j]'(by rw [hl]; exact hjl)), by
    rw [List.getElem?_map, List.getElem?_range hjl]; rfl, by rw [← hz₀]; exact hz,
    ageUnits_drawn _ _ _, ?_, h2, h3, ?_, ?_⟩
  · rw [h1]; exact ageHist_of ms
  all_goals
    rw [h1]
    have hf : ((ms.map fun m : Int => (m : ℝ) / 100).filter fun x => decide (x < 3)) =
        (ms.filter fun m => decide (m < 300)).map fun m : Int => (m : ℝ) / 100 := by
      rw [List.filter_map]
      congr 1
      apply List.filter_congr
      intro m _
      simp only [Function.comp, decide_eq_decide]
      rw [div_lt_iff₀ (by norm_num)]
      norm_num
      exact_mod_cast Iff.rfl
    simp only [hf, List.map_eq_nil_iff]
  · rw [ite_eq_left_iff]
    simp only [reduceCtorEq, imp_false, not_not, List.filter_eq_nil_iff, decide_eq_true_eq, not_lt]
  · intro h' hh
    split_ifs at hh
    injection hh with hh
    rw [← hh]
    exact ageHist_of _

theorem sum_counts (b : Int) (n : Nat) (ms : List Int) (hm : ∀ m ∈ ms, b ≤ m ∧ m < b + n) :
    ((List.range n).map fun k : Nat => ms.count (b + (k : Int))).sum = ms.length := by
  induction ms with
  | nil => simp
  | cons a l ih =>
    have h1 := ih (fun m h => hm m (by simp [h]))
    have h2 := hm a (by simp)
    simp only [List.count_cons, List.length_cons]
    rw [List.sum_map_add, h1]
    congr 1
    obtain ⟨q, hq⟩ : ∃ q : Nat, a = b + q := ⟨(a - b).toNat, by omega⟩
    have hqn : q < n := by omega
    have : (fun k : Nat => if (a == b + (k : Int)) = true then 1 else 0) =
        fun k : Nat => if k = q then 1 else 0 := by
      funext k
      subst hq
      by_cases hk : k = q
      · simp [hk]
      · rw [if_neg hk, if_neg]
        simp only [beq_iff_eq]
        omega
    rw [this]
    clear this h1 ih hm h2
    induction n with
    | zero => omega
    | succ n ih =>
      rw [List.range_succ, List.map_append, List.sum_append]
      rcases Nat.lt_or_ge q n with h | h
      · rw [ih h]; simp; omega
      · have : q = n := by omega
        subst this
        have z : ∀ m ≤ q, ((List.range m).map fun k : Nat => if k = q then 1 else 0).sum = 0 := by
          intro m hm
          apply List.sum_eq_zero
          intro x hx
          obtain ⟨k, hk, rfl⟩ := List.mem_map.1 hx
          have := List.mem_range.1 hk
          rw [if_neg (by omega)]
        rw [z q le_rfl]
        simp

/-- The bars count every age they reach. -/
theorem ageHist_sum {ms : List Int} {h : List Nat} (hh : AgeHist ms h)
    (hm : ∀ m ∈ ms, 160 ≤ m ∧ m ≤ 419) : h.sum = ms.length := by
  have e : h = (List.range 260).map fun k : Nat => ms.count (160 + (k : Int)) := by
    apply List.ext_getElem?
    intro k
    rcases Nat.lt_or_ge k 260 with hk | hk
    · rw [hh.2 k hk, List.getElem?_map, List.getElem?_range hk]; rfl
    · rw [List.getElem?_eq_none (by rw [hh.1]; exact hk),
        List.getElem?_eq_none (by rw [List.length_map, List.length_range]; exact hk)]
  rw [e]
  exact sum_counts 160 260 ms (fun m h => ⟨(hm m h).1, by have := (hm m h).2; push_cast; omega⟩)

/-- **C104** the full claim would be that the bars of each crater count all runs.  Proved for craters
whose error bars are between 1.595 and 4.195 billion years; missing: the others, see
`C104_counted_refuted`. -/
theorem C104_counted_partial (g : Gen σ) (hg : LawfulGen g) (c : RunCfg) (d : RunData)
    (hc : CratersOK d.craters) (hs : SortDesc d.sortAges) (hts : c.timestep = 1e7) (draw : Int)
    (j : Nat) (raw : RawCrater) (hj : d.craters[j]? = some raw)
    (h1 : 1.595 < raw.age - raw.age_low) (h2 : raw.age + raw.age_upp < 4.195) :
    ∃ hs h, ageFigTop g c d draw = .ok hs ∧ hs[j]? = some (raw.cname, h) ∧ h.sum = 100 := by
  obtain ⟨hs, e1, -, e2⟩ := C104_upper g hg c d hc hs hts draw
  obtain ⟨h, ms, e3, e4, e5, e6⟩ := e2 j raw hj
  refine ⟨hs, h, e1, e3, ?_⟩
  rw [← e5]
  apply ageHist_sum e4
  intro m hm
  obtain ⟨i, hi⟩ := List.mem_iff_getElem?.1 hm
  obtain ⟨z, hz, ha⟩ := e6 i m hi
  obtain ⟨b1, b2, b3⟩ := hc.bars raw (List.mem_of_getElem? hj)
  obtain ⟨r1, r2⟩ := hg.each_range _ _ (ranges_lt hc) j (ageRange raw) z
    (by rw [List.getElem?_map, hj]; rfl) hz
  unfold ageRange at r1 r2
  simp only at r1 r2
  rw [← neg_div, div_le_iff₀ b3] at r1
  rw [le_div_iff₀ b3] at r2
  unfold AgeDrawn at ha
  rw [abs_le] at ha
  norm_num at h1 h2 ha
  have a1 : (159 : ℝ) < m := by nlinarith [ha.1]
  have a2 : (m : ℝ) < 420 := by nlinarith [ha.2]
  have b1 : 159 < m := by exact_mod_cast a1
  have b2 : m < 420 := by exact_mod_cast a2
  omega

/-- A generator that draws the highest ages. -/
noncomputable def highGen : Gen Bool := { flipGen with init := fun _ => false }

theorem highGen_lawful : LawfulGen highGen :=
  ⟨flipGen_lawful.random_length, flipGen_lawful.random_range, flipGen_lawful.choice_length,
    flipGen_lawful.choice_mem, flipGen_lawful.choiceIdx_length, flipGen_lawful.choiceIdx_lt,
    flipGen_lawful.truncnorm_length, flipGen_lawful.truncnorm_range, flipGen_lawful.each_length,
    flipGen_lawful.each_range⟩

theorem shipped_craters (nk : List (ℝ × ℝ)) (s : CraterTable → CraterTable) (s' : List (ℝ × ℝ) → List (ℝ × ℝ))
    (o : List (List Char) → List (List Char)) : CratersOK (shippedData nk s s' o).craters := by
  constructor
  · have : (craterFile.map (·.cname)).Nodup := by decide +kernel
    rw [show (shippedData nk s s' o).craters = craterFile.map FileRow.read from rfl, List.map_map]
    exact this
  · intro r hr
    obtain ⟨f, hf, rfl⟩ := List.mem_map.1 hr
    have : ∀ f ∈ craterFile, 0 ≤ f.age_low ∧ 0 ≤ f.age_upp ∧ 0 < f.age_low + f.age_upp := by decide +kernel
    obtain ⟨h1, h2, h3⟩ := this f hf
    simp only [FileRow.read]
    exact ⟨by exact_mod_cast h1, by exact_mod_cast h2, by exact_mod_cast h3⟩

/-- **C104** every crater of the shipped list but Haworth has all its runs counted. -/
theorem C104_shipped (g : Gen σ) (hg : LawfulGen g) (c : RunCfg) (nk : List (ℝ × ℝ))
    (s : CraterTable → CraterTable) (hs : SortDesc s) (s' : List (ℝ × ℝ) → List (ℝ × ℝ))
    (o : List (List Char) → List (List Char)) (hts : c.timestep = 1e7) (draw : Int) (j : Nat)
    (raw : RawCrater) (hj : (shippedData nk s s' o).craters[j]? = some raw) (hn : raw.cname ≠ "Haworth") :
    ∃ hs h, ageFigTop g c (shippedData nk s s' o) draw = .ok hs ∧ hs[j]? = some (raw.cname, h) ∧
      h.sum = 100 := by
  have hd := shipped_craters nk s s' o
  apply C104_counted_partial g hg c _ hd hs hts draw j raw hj
  all_goals
    obtain ⟨f, hf, rfl⟩ := List.mem_map.1 (List.mem_of_getElem? hj)
    have : ∀ f ∈ craterFile, f.cname ≠ "Haworth" →
      1.595 < f.age - f.age_low ∧ f.age + f.age_upp < 4.195 := by decide +kernel
    obtain ⟨h1, h2⟩ := this f hf hn
    simp only [FileRow.read]
  · have := (Rat.cast_lt (K := ℝ)).2 h1
    push_cast at this
    norm_num at this ⊢
    exact this
  · have := (Rat.cast_lt (K := ℝ)).2 h2
    push_cast at this
    norm_num at this ⊢
    exact this

theorem flatten_replicate_get {α : Type} (L : List α) (n i j : Nat) (hi : i < n) (hj : j < L.length) :
    (List.replicate n L).flatten[i * L.length + j]? = L[j]? := by
  induction n generalizing i with
  | zero => omega
  | succ n ih =>
    rw [List.replicate_succ, List.flatten_cons]
    cases i with
    | zero => rw [Nat.zero_mul, Nat.zero_add, List.getElem?_append_left hj]
    | succ i =>
      have e : (i + 1) * L.length + j = L.length + (i * L.length + j) := by ring
      rw [e, List.getElem?_append_right (Nat.le_add_right _ _), Nat.add_sub_cancel_left]
      exact ih i (by omega)

/-- The highest age drawn for error bars of 0.02 billion years. -/
theorem high_drawn (raw : RawCrater) (h1 : raw.age_low = 0.02) (h2 : raw.age_upp = 0.02) (k m : Int)
    (h : AgeDrawn raw ((k : ℝ) / 100) (ageRange raw).2 m) : m = k + 2 := by
  unfold AgeDrawn ageRange at h
  rw [h1, h2, abs_le] at h
  norm_num at h
  have a1 : (m : ℝ) < k + 3 := by linarith [h.2]
  have a2 : (k : ℝ) + 1 < m := by linarith [h.1]
  have b1 : m < k + 3 := by exact_mod_cast a1
  have b2 : k + 1 < m := by exact_mod_cast a2
  omega

/-- **C104** the bars of Haworth may count none of the runs: its age may be up to 4.20 billion years,
which no bin includes. -/
theorem C104_counted_refuted (c : RunCfg) (hts : c.timestep = 1e7) (draw : Int) :
    ∃ hs h, ageFigTop highGen c (shippedData [] sortDesc id id) draw = .ok hs ∧
      hs[0]? = some ("Haworth", h) ∧ h.sum = 0 := by
  obtain ⟨hs, e1, -, e2⟩ := C104_upper highGen highGen_lawful c _ (shipped_craters [] sortDesc id id)
    sortDesc_spec hts draw
  obtain ⟨raw, hraw⟩ : ∃ t, t = (craterFile.map FileRow.read)[0] := ⟨_, rfl⟩
  have hget : (shippedData [] sortDesc id id).craters[0]? = some raw := by rw [hraw]; rfl
  have r1 : raw.age_low = 0.02 := by rw [hraw]; norm_num [craterFile, FileRow.read]
  have r2 : raw.age_upp = 0.02 := by rw [hraw]; norm_num [craterFile, FileRow.read]
  have r3 : ((418 : Int) : ℝ) / 100 = raw.age := by rw [hraw]; norm_num [craterFile, FileRow.read]
  obtain ⟨h, ms, e3, e4, -, e6⟩ := e2 0 raw hget
  refine ⟨hs, h, e1, by rw [e3, hraw]; rfl, ?_⟩
  apply List.sum_eq_zero
  intro x hx
  obtain ⟨k, hk⟩ := List.mem_iff_getElem?.1 hx
  have hk2 : k < 260 := by rw [← e4.1]; exact (List.getElem?_eq_some_iff.1 hk).1
  rw [e4.2 k hk2] at hk
  injection hk with hk
  rw [← hk, List.count_eq_zero]
  intro hm
  obtain ⟨i, hi⟩ := List.mem_iff_getElem?.1 hm
  obtain ⟨z, hz, ha⟩ := e6 i _ hi
  change (List.map (fun p : ℝ × ℝ => p.2) _)[0]? = _ at hz
  rw [List.getElem?_map, List.getElem?_map, hget] at hz
  injection hz with hz
  have := high_drawn raw r1 r2 418 (160 + k) (by
    rw [r3, show (ageRange raw).2 = z from hz]
    exact ha)
  omega

/-- **C104** the lower panel leaves the error bars: all draws for Shoemaker, listed as 4.15 ± 0.02
billion years, may be in the bar for 4.19. -/
theorem C104_lower_refuted (c : RunCfg) (hts : c.timestep = 1e7) (draw : Int) :
    ∃ hs h inset, ageFigBottom highGen c (shippedData [] sortDesc id id) draw = .ok hs ∧
      hs[1]? = some (h, inset) ∧ h[259]? = some 100000 := by
  obtain ⟨hs, e1, -, e2⟩ := C104_lower highGen highGen_lawful c _ (shipped_craters [] sortDesc id id)
    sortDesc_spec hts draw
  obtain ⟨raw, hraw⟩ : ∃ t, t = (craterFile.map FileRow.read)[1] := ⟨_, rfl⟩
  have hget : (shippedData [] sortDesc id id).craters[1]? = some raw := by rw [hraw]; rfl
  have r1 : raw.age_low = 0.02 := by rw [hraw]; norm_num [craterFile, FileRow.read]
  have r2 : raw.age_upp = 0.02 := by rw [hraw]; norm_num [craterFile, FileRow.read]
  have r3 : ((415 : Int) : ℝ) / 100 = raw.age := by rw [hraw]; norm_num [craterFile, FileRow.read]
  obtain ⟨h, inset, ms, z₀, m₀, e3, e4, e5, e6, e7, e8, -⟩ := e2 1 raw hget
  refine ⟨hs, h, inset, e1, e3, ?_⟩
  rw [e6.2 259 (by norm_num), ← e7]
  congr 1
  have hm₀ : m₀ = 417 := by
    apply high_drawn raw r1 r2 415 m₀
    have : (highGen.truncnormEach ((shippedData [] sortDesc id id).craters.map ageRange)
      (highGen.init 99)).1[1]? = some (ageRange raw).2 := by
      change (List.map (fun p : ℝ × ℝ => p.2) _)[1]? = _
      rw [List.getElem?_map, List.getElem?_map, hget]
      rfl
    rw [this] at e4
    injection e4 with e4
    rw [e4, r3]
    exact e5
  rw [List.count_eq_length]
  intro m hm
  obtain ⟨i, hi⟩ := List.mem_iff_getElem?.1 hm
  have hil : i < 100000 := by rw [← e7]; exact (List.getElem?_eq_some_iff.1 hi).1
  obtain ⟨z, hz, ha⟩ := e8 i m hi
  have := high_drawn raw r1 r2 417 m (by
    have hf := flatten_replicate_get ((shippedData [] sortDesc id id).craters.map ageRange) 100000 i 1 hil
      (by rw [List.length_map]; exact (List.getElem?_eq_some_iff.1 hget).1)
    rw [List.length_map] at hf
    change (List.map (fun p : ℝ × ℝ => p.2) _)[_]? = _ at hz
    rw [List.getElem?_map, hf, List.getElem?_map, hget] at hz
    injection hz with hz
    rw [hm₀] at ha
    rw [show (ageRange raw).2 = z from hz]
    exact ha)
  rw [this]
  norm_num

/-- A generator that draws the lowest ages from seed 200, the highest from other seeds. -/
noncomputable def seedGen : Gen Bool := { flipGen with init := fun s => decide (s = 200) }

theorem seedGen_lawful : LawfulGen seedGen :=
  ⟨flipGen_lawful.random_length, flipGen_lawful.random_range, flipGen_lawful.choice_length,
    flipGen_lawful.choice_mem, flipGen_lawful.choiceIdx_length, flipGen_lawful.choiceIdx_lt,
    flipGen_lawful.truncnorm_length, flipGen_lawful.truncnorm_range, flipGen_lawful.each_length,
    flipGen_lawful.each_range⟩

/-- **C104** seed 0 of the upper panel is a new draw each time, 200 or 300 for instance: two runs of the
script may show different figures. -/
theorem C104_seed_refuted (c : RunCfg) (hts : c.timestep = 1e7) :
    ageFigTop seedGen c (shippedData [] sortDesc id id) 200 ≠
      ageFigTop seedGen c (shippedData [] sortDesc id id) 300 := by
  obtain ⟨raw, hraw⟩ : ∃ t, t = (craterFile.map FileRow.read)[1] := ⟨_, rfl⟩
  have hget : (shippedData [] sortDesc id id).craters[1]? = some raw := by rw [hraw]; rfl
  have r1 : raw.age_low = 0.02 := by rw [hraw]; norm_num [craterFile, FileRow.read]
  have r2 : raw.age_upp = 0.02 := by rw [hraw]; norm_num [craterFile, FileRow.read]
  have r3 : ((415 : Int) : ℝ) / 100 = raw.age := by rw [hraw]; norm_num [craterFile, FileRow.read]
  have hup := fun draw => C104_upper seedGen seedGen_lawful c _ (shipped_craters [] sortDesc id id)
    sortDesc_spec hts draw
  obtain ⟨hs, e1, -, e2⟩ := hup 200
  obtain ⟨hs', e1', -, e2'⟩ := hup 300
  obtain ⟨h, ms, e3, e4, e5, e6⟩ := e2 1 raw hget
  obtain ⟨h', ms', e3', e4', e5', e6'⟩ := e2' 1 raw hget
  have hdraw : ∀ s : Int, (seedGen.truncnormEach ((shippedData [] sortDesc id id).craters.map ageRange)
      (seedGen.init s)).1[1]? = some (if s = 200 then (ageRange raw).1 else (ageRange raw).2) := by
    intro s
    change (List.map (fun p : ℝ × ℝ => if decide (s = 200) = true then p.1 else p.2) _)[1]? = _
    rw [List.getElem?_map, List.getElem?_map, hget]
    simp
  rw [e1, e1']
  intro he
  injection he with he
  rw [he, e3'] at e3
  have hh : h' = h := by injection e3 with e3; injection e3
  have hb := e4.2 253 (by norm_num)
  rw [← hh, e4'.2 253 (by norm_num)] at hb
  injection hb with hb
  have z' : ms'.count (160 + ((253 : Nat) : Int)) = 0 := by
    rw [List.count_eq_zero]
    intro hm
    obtain ⟨i, hi⟩ := List.mem_iff_getElem?.1 hm
    obtain ⟨z, hz, ha⟩ := e6' i _ hi
    have hil : i < 100 := by
      rcases Nat.lt_or_ge i 100 with h | h
      · exact h
      · rw [List.getElem?_eq_none (by omega)] at hi; cases hi
    rw [hdraw, if_neg (by split <;> omega)] at hz
    injection hz with hz
    have := high_drawn raw r1 r2 415 _ (by rw [r3, hz]; exact ha)
    norm_num at this
  rw [z'] at hb
  have hpos := List.count_pos_iff (a := (160 + ((253 : Nat) : Int))) (l := ms)
  have h0 : 0 < ms.length := by rw [e5]; norm_num
  obtain ⟨z, hz, ha⟩ := e6 0 _ (List.getElem?_eq_getElem h0)
  rw [hdraw] at hz
  simp only [if_true] at hz
  injection hz with hz
  have hm : ms[0] = 413 := by
    rw [← hz] at ha
    unfold AgeDrawn ageRange at ha
    rw [r1, r2, ← r3, abs_le] at ha
    norm_num at ha
    have a1 : (ms[0] : ℝ) < 414 := by linarith [ha.2]
    have a2 : (412 : ℝ) < ms[0] := by linarith [ha.1]
    have b1 : ms[0] < 414 := by exact_mod_cast a1
    have b2 : 412 < ms[0] := by exact_mod_cast a2
    omega
  have := hpos.2 (by
    have := List.getElem_mem h0
    rw [hm] at this
    norm_num
    exact this)
  omega

/-- The default configuration and the shipped craters meet the hypotheses. -/
example : (RunCfg.default 1).timestep = 1e7 ∧ CratersOK (shippedData [] sortDesc id id).craters ∧
    SortDesc sortDesc := ⟨by norm_num [RunCfg.default], shipped_craters _ _ _ _, sortDesc_spec⟩

theorem countP_split {α : Type} (p q r : α → Bool) (l : List α)
    (h : ∀ x, (r x = true ↔ p x = true ∨ q x = true) ∧ ¬ (p x = true ∧ q x = true)) :
    l.countP r = l.countP p + l.countP q := by
  induction l with
  | nil => rfl
  | cons a l ih =>
    obtain ⟨h1, h2⟩ := h a
    rw [List.countP_cons, List.countP_cons, List.countP_cons, ih]
    cases hp : p a <;> cases hq : q a <;> cases hr : r a <;> simp_all <;> omega

theorem bins_sum (xs : List ℝ) (n : Nat) : ∀ (rest : List ℝ) (a b : ℝ) (k : Nat),
    (a :: b :: rest).Pairwise (· < ·) → k + rest.length + 2 = n →
    (((List.zipWith (fun a b => (a, b)) (a :: b :: rest) (b :: rest)).zipIdx k).map
      fun p => binCount xs p.1.1 p.1.2 (p.2 + 2 == n)).sum =
      xs.countP fun x => decide (a ≤ x ∧ x ≤ (b :: rest).getLast (by simp))
  | [], a, b, k, hs, hk => by
    simp only [List.length_nil, Nat.add_zero] at hk
    simp only [List.zipWith_cons_cons, List.zipWith_nil_right, List.zipIdx_cons, List.zipIdx_nil,
      List.map_cons, List.map_nil, List.sum_cons, List.sum_nil, Nat.add_zero, hk, binCount,
      List.getLast_singleton]
    congr 1
    funext x
    simp [le_iff_lt_or_eq]
  | c :: rest, a, b, k, hs, hk => by
    have hs' := (List.pairwise_cons.1 hs).2
    have hab := (List.pairwise_cons.1 hs).1 b (by simp)
    simp only [List.length_cons] at hk
    have ih := bins_sum xs n rest b c (k + 1) hs' (by omega)
    rw [List.zipWith_cons_cons, List.zipIdx_cons, List.map_cons, List.sum_cons, ih]
    have hne : (k + 2 == n) = false := by simp; omega
    have hbl : b ≤ (c :: rest).getLast (by simp) :=
      ((List.pairwise_cons.1 hs').1 _ (List.getLast_mem _)).le
    simp only [hne, binCount, List.getLast_cons (a := b) (List.cons_ne_nil c rest)]
    refine (countP_split _ _ _ _ fun x => ⟨?_, ?_⟩).symm
    · simp only [decide_eq_true_eq, Bool.false_eq_true, false_and, or_false]
      constructor
      · rintro ⟨h1, h2⟩
        rcases lt_or_ge x b with h | h
        · exact .inl ⟨h1, h⟩
        · exact .inr ⟨h, h2⟩
      · rintro (⟨h1, h2⟩ | ⟨h1, h2⟩)
        · exact ⟨h1, (h2.trans_le hbl).le⟩
        · exact ⟨hab.le.trans h1, h2⟩
    · simp only [decide_eq_true_eq, Bool.false_eq_true, false_and, or_false]
      rintro ⟨⟨-, h1⟩, h2, -⟩
      exact absurd h1 (not_lt.2 h2)

/-- **C104** a histogram with increasing edges counts every value from the first edge to the last, both
included, once. -/
theorem C104_bins (a b : ℝ) (rest : List ℝ) (xs : List ℝ) (h : (a :: b :: rest).Pairwise (· < ·)) :
    (npHist (a :: b :: rest) xs).sum =
      xs.countP fun x => decide (a ≤ x ∧ x ≤ (b :: rest).getLast (by simp)) :=
  bins_sum xs _ rest a b 0 h (by simp)

/-- Three values of which one is the last edge. -/
example : (npHist [0, 1, 2] [0.5, 2, 3]).sum = 2 := by
  rw [C104_bins 0 1 [2] _ (by norm_num)]
  norm_num [List.countP_cons]

end MoonPIES
