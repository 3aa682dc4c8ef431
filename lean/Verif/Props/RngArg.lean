import Verif.Lemmas.RngArg
import Verif.Props.MainEjecta
import Verif.Lemmas.Linspace

/-!
# C101 and C102: the argument `rng`, and the figure of basin ice
-/

namespace MoonPIES

open Spec

variable {σ : Type}

/-! ## C101 -/

/-- **C101** the crater table exists for every argument `rng`, and its marks and ages are those
drawn from the two states of the argument: with a generator the ages are drawn after the marks, with
a seed both from its start, without an argument from two new generators. -/
theorem C101_drawn (g : Gen σ) (hg : LawfulGen g) (c : RunCfg) (d : RunData)
    (hc : PhysicalCfg c) (hd : PhysicalData c d) (hr : Runnable c d) (e1 e2 : σ) (r : RngArg σ) :
    ∃ df, craterBasinListRng g c d e1 e2 r = .ok (df, r.after
        (g.truncnormEach ((d.craters ++ d.basins).map ageRange)
          (states g d.basins.length e1 e2 r).2).2) ∧
      TableDrawn c d (g.random d.basins.length (states g d.basins.length e1 e2 r).1).1
        (g.truncnormEach ((d.craters ++ d.basins).map ageRange)
          (states g d.basins.length e1 e2 r).2).1 df := by
  obtain ⟨df, s', h, -⟩ := craterBasinList_ok g.pair (pair_lawful hg) hc hd hr
    (states g d.basins.length e1 e2 r)
  refine ⟨df, ?_, tableDrawn_of g hg hc hd hr _ df s' h⟩
  rw [craterList_states, h, rawTable_ranges g hg hr]
  rfl

/-- **C101** with a generator, the table and the generator left behind are those of a run. -/
theorem C101_generator (g : Gen σ) (c : RunCfg) (d : RunData) (e1 e2 s : σ) :
    craterBasinListRng g c d e1 e2 (.gen s) =
      (craterBasinList g c d s).map (fun p => (p.1, .gen p.2)) := by
  unfold craterBasinListRng craterBasinList
  simp only [RngArg.start, RngArg.after, bind, Except.bind]
  generalize randomizeAges (K := ℝ) (β := CraterCols) _ _ _ _ = t
  cases t <;> rfl

/-- **C101 (partial)** a crater table is reproducible if a seed or a generator is given: it does
not depend on the operating system's randomness.  A seed gives the same table every time. -/
theorem C101_reproducible_partial (g : Gen σ) (c : RunCfg) (d : RunData) (e1 e2 e1' e2' : σ)
    (r : RngArg σ) (h : r ≠ .none) :
    craterBasinListRng g c d e1 e2 r = craterBasinListRng g c d e1' e2' r ∧
    ∀ n df r', r = .seed n → craterBasinListRng g c d e1 e2 r = .ok (df, r') →
      craterBasinListRng g c d e1' e2' r' = .ok (df, r') := by
  have e : craterBasinListRng g c d e1 e2 r = craterBasinListRng g c d e1' e2' r := by
    cases r with
    | none => exact absurd rfl h
    | seed n => rfl
    | gen s => rfl
  refine ⟨e, ?_⟩
  intro n df r' hn h1
  subst hn
  have hr' : r' = .seed n := by
    rw [craterList_states] at h1
    cases h2 : craterBasinList g.pair c d (states g d.basins.length e1 e2 (.seed n)) with
    | error x => rw [h2] at h1; cases h1
    | ok p =>
      rw [h2] at h1
      injection h1 with h1
      rw [Prod.mk.injEq] at h1
      exact h1.2.symm
  subst hr'
  rw [← e, h1]

/-- A generator that draws the lowest and the highest values in turn. -/
noncomputable def flipGen : Gen Bool where
  init _ := true
  random n s := (List.replicate n (if s then 0 else 1 / 2), !s)
  choice l n _ s := (List.replicate n (l.headD 0), !s)
  choiceIdx _ n _ s := (List.replicate n 0, !s)
  truncnorm a _ n s := (List.replicate n a, !s)
  truncnormEach l s := (l.map (fun p => if s then p.1 else p.2), !s)

theorem flipGen_lawful : LawfulGen flipGen where
  random_length n s := by simp [flipGen]
  random_range n s x hx := by
    simp only [flipGen] at hx
    obtain rfl := (List.mem_replicate.1 hx).2
    split <;> norm_num
  choice_length l n p s _ := by simp [flipGen]
  choice_mem l n p s h x hx := by
    simp only [flipGen] at hx
    have hx := (List.mem_replicate.1 hx).2
    have hpos := validProbs_pos h
    cases l with
    | nil => simp at hpos
    | cons a l => simp [hx]
  choiceIdx_length k n p s _ := by simp [flipGen]
  choiceIdx_lt k n p s h i hi := by
    simp only [flipGen] at hi
    have := (List.mem_replicate.1 hi).2
    have := validProbs_pos h
    omega
  truncnorm_length a b n s _ := by simp [flipGen]
  truncnorm_range a b n s h z hz := by
    simp only [flipGen] at hz
    obtain rfl := (List.mem_replicate.1 hz).2
    exact ⟨le_refl _, fun b' hb => (h b' hb).le⟩
  each_length l s _ := by simp [flipGen]
  each_range l s h i p z hp hz := by
    simp only [flipGen] at hz
    rw [List.getElem?_map, hp] at hz
    simp only [Option.map_some, Option.some.injEq] at hz
    have := h p (List.mem_of_getElem? hp)
    subst hz
    split
    · exact ⟨le_refl _, this.le⟩
    · exact ⟨this.le, le_refl _⟩

/-- The lowest and the highest ages never give the same table. -/
theorem flip_ages (u u' : List ℝ) (df : CraterTable)
    (h : TableDrawn basinRunCfg basinRunData u ((flipGen.truncnormEach
      ((basinRunData.craters ++ basinRunData.basins).map ageRange) true).1) df)
    (h' : TableDrawn basinRunCfg basinRunData u' ((flipGen.truncnormEach
      ((basinRunData.craters ++ basinRunData.basins).map ageRange) false).1) df) : False := by
  obtain ⟨-, rows, p, l, a, -⟩ := h
  obtain ⟨-, rows', p', l', a', b'⟩ := h'
  obtain ⟨r, x, h1, h2, h3⟩ := a 0 trapA rfl
  obtain ⟨r', x', h1', h2', h3'⟩ := a' 0 trapA rfl
  obtain ⟨q, y, w, h4, -, -, h5⟩ := b' 0 basinB rfl
  simp only [flipGen, basinRunData, List.map_append, List.map_cons, List.map_nil,
    List.cons_append, List.nil_append, List.getElem?_cons_zero, Option.some.injEq] at h2 h2'
  have hr : r ∈ rows' := p'.mem_iff.1 (p.mem_iff.2 (List.mem_of_getElem? h1))
  have hcl : basinRunData.craters.length = 1 := rfl
  have hbl : basinRunData.basins.length = 1 := rfl
  rw [hcl] at h4
  have e : rows' = [r', q] := by
    match rows', l' with
    | [x1, x2], _ =>
      simp only [List.getElem?_cons_zero, List.getElem?_cons_succ, Option.some.injEq] at h1' h4
      rw [h1', h4]
  rw [e] at hr
  rcases List.mem_cons.1 hr with hr | hr
  · have k1 := h3.age
    have k2 := h3'.age
    rw [hr, ← h2] at k1
    rw [← h2'] at k2
    have ht : basinRunCfg.timestep = 10000000 := by
      simp only [basinRunCfg, RunCfg.cannon, RunCfg.default]; norm_num
    rw [ht] at k1 k2
    have k1 := (abs_le.1 k1).2
    have k2 := (abs_le.1 k2).1
    simp only [ageRange, trapA] at k1 k2
    norm_num at k1 k2
    linarith
  · obtain rfl := List.mem_singleton.1 hr
    have := h3.name.symm.trans h5.name
    simp [trapA, basinB] at this

/-- **C101 refuted**: without the argument, the same configuration can give different tables, so
the configured seed does not make the table reproducible. -/
theorem C101_reproducible_refuted :
    ¬ ∀ (σ : Type) (g : Gen σ) (c : RunCfg) (d : RunData) (e1 e2 e1' e2' : σ), LawfulGen g →
      PhysicalCfg c → PhysicalData c d → Runnable c d →
      (craterBasinListRng g c d e1 e2 .none).map (·.1) =
        (craterBasinListRng g c d e1' e2' .none).map (·.1) := by
  intro H
  have := H Bool flipGen _ _ true true true false flipGen_lawful basinRun_physical basinRun_data
    basinRun_runnable
  obtain ⟨df, h1, h2⟩ := C101_drawn flipGen flipGen_lawful _ _ basinRun_physical basinRun_data
    basinRun_runnable true true .none
  obtain ⟨df', h1', h2'⟩ := C101_drawn flipGen flipGen_lawful _ _ basinRun_physical basinRun_data
    basinRun_runnable true false .none
  rw [h1, h1'] at this
  simp only [Except.map, Except.ok.injEq] at this
  subst this
  exact flip_ages _ _ _ h2 h2'

/-- **C101 refuted**: a seed does not give the table that a generator with this seed gives, since
the ages are drawn from the start of the seed once more. -/
theorem C101_seed_refuted :
    ¬ ∀ (σ : Type) (g : Gen σ) (c : RunCfg) (d : RunData) (e1 e2 : σ) (n : Int), LawfulGen g →
      PhysicalCfg c → PhysicalData c d → Runnable c d →
      (craterBasinListRng g c d e1 e2 (.seed n)).map (·.1) =
        (craterBasinListRng g c d e1 e2 (.gen (g.init n))).map (·.1) := by
  intro H
  have := H Bool flipGen _ _ true true 1 flipGen_lawful basinRun_physical basinRun_data
    basinRun_runnable
  obtain ⟨df, h1, h2⟩ := C101_drawn flipGen flipGen_lawful _ _ basinRun_physical basinRun_data
    basinRun_runnable true true (.seed 1)
  obtain ⟨df', h1', h2'⟩ := C101_drawn flipGen flipGen_lawful _ _ basinRun_physical basinRun_data
    basinRun_runnable true true (.gen (flipGen.init 1))
  rw [h1, h1'] at this
  simp only [Except.map, Except.ok.injEq] at this
  subst this
  exact flip_ages _ _ _ h2 h2'

/-- The default configuration with the files of the repository. -/
example : ∃ df, (craterBasinListRng flipGen (RunCfg.default 1) (shippedData [] sortDesc id id) true
    false (.seed 7)).map (·.1) = .ok df := by
  obtain ⟨df, h, -⟩ := C101_drawn flipGen flipGen_lawful _ _ (default_physical 1)
    (default_data _ _ _ _ sortDesc_spec 1) (default_runnable _ _ _ _ 1) true false (.seed 7)
  exact ⟨df, by rw [h]; rfl⟩

/-! ## C102 -/

/-- **C102** moving averages: over an odd window that fits, each value is the sum of the values at
most half a window away over the width of the window; so away from the ends it is their mean. -/
theorem C102_moving_average (x : List ℝ) (r : Nat) (h : 2 * r + 1 ≤ x.length) :
    ∃ l, movingAvg x (2 * r + 1) = .ok l ∧ l.length = x.length ∧
      ∀ i, i < x.length → ∃ v, l[i]? = some v ∧
        v * (2 * r + 1) = ((x.take (i + r + 1)).drop (i - r)).sum ∧
        (r ≤ i → i + r < x.length →
          v = ((x.take (i + r + 1)).drop (i - r)).sum / ((x.take (i + r + 1)).drop (i - r)).length) := by
  obtain ⟨l, h1, h2, h3⟩ := movingAvg_get x r h
  refine ⟨l, h1, h2, fun i hi => ⟨_, h3 i hi, ?_, ?_⟩⟩
  · push_cast
    have : (2 * (r : ℝ) + 1) ≠ 0 := by positivity
    field_simp
  · intro a b
    congr 2
    rw [List.length_drop, List.length_take]
    omega

/-- **C102** over an even window that fits, each value is the sum of the half before and the half
from here on, over the width of the window. -/
theorem C102_moving_average_even (x : List ℝ) (r : Nat) (hr : 0 < r) (h : 2 * r ≤ x.length) :
    ∃ l, movingAvg x (2 * r) = .ok l ∧ l.length = x.length ∧
      ∀ i, i < x.length → ∃ v, l[i]? = some v ∧ v * (2 * r) = ((x.take (i + r)).drop (i - r)).sum := by
  obtain ⟨l, h1, h2, h3⟩ := movingAvg_even x r hr h
  refine ⟨l, h1, h2, fun i hi => ⟨_, h3 i hi, ?_⟩⟩
  push_cast
  have : (2 * (r : ℝ)) ≠ 0 := by positivity
  field_simp

example : ∃ l, movingAvg [1, 2, 3, (4 : ℝ)] 2 = .ok l ∧ l.length = 4 := by
  obtain ⟨l, h1, h2, -⟩ := C102_moving_average_even [1, 2, 3, 4] 1 (by simp) (by simp)
  exact ⟨l, h1, h2⟩

/-- **C102 refuted**: at the ends the curve is not the mean over the steps under the window; a
constant comes out a third too low. -/
theorem C102_ends_refuted :
    ¬ ∀ (x : List ℝ) (w : Nat) (l : List ℝ) (i : Nat) v, movingAvg x w = .ok l → (∀ y ∈ x, y = 1) → l[i]? = some v →
      v = 1 := by
  intro H
  obtain ⟨l, h1, -, h3⟩ := C102_moving_average [1, 1, 1] 1 (by simp)
  obtain ⟨v, h4, h5, -⟩ := h3 0 (by simp)
  have := H _ _ l 0 v h1 (by simp) h4
  subst this
  norm_num at h5

/-- **C102** the seeds of the figure have no effect: every run is the same for other seeds. -/
theorem C102_seeds_ignored (g : Gen σ) (c : RunCfg) (d : RunData) (time : List ℝ) (comet : Bool)
    (draw seed draw' seed' : Int) (e : σ × σ × σ) :
    basinFigRun g c d time comet draw seed e = basinFigRun g c d time comet draw' seed' e := by
  cases comet <;> rfl

/-- **C102** the figure: it exists for at least one run, on the times of the default configuration
whatever the configuration says.  Each run is the ice of the basins made by the kind of impactor,
drawn from three new generators.  One curve is the mean over the runs and the other the 99.7th
percentile, both smoothed over three timesteps. -/
theorem C102_figure (g : Gen σ) (hg : LawfulGen g) (c : RunCfg) (d : RunData)
    (hc : PhysicalCfg c) (hd : PhysicalData c d) (hr : Runnable c d) (hcom : c.is_comet = false)
    (comet : Bool) (n : Nat) (hn : 0 < n) (draw : Nat → Int) (ent : Nat → σ × σ × σ) :
    ∃ b means pcts, basinFig g c d comet n draw ent = .ok b ∧
      b.time.length = 425 ∧
      (∀ (i : Nat) t, b.time[i]? = some t → t = (4.25e9 : ℝ) - i * 1e7) ∧
      b.runs.length = n ∧
      (∀ (i : Nat) run, b.runs[i]? = some run →
        BasinRun g c d (if comet then .comet else .asteroid) b.time (ent i) run) ∧
      Smooth3 means b.mean ∧ Smooth3 pcts b.pct ∧ means.length = 425 ∧ pcts.length = 425 ∧
      ∀ j : Nat, j < 425 → ∃ col m q, col.length = n ∧ means[j]? = some m ∧ pcts[j]? = some q ∧
        (∀ (i : Nat) run, b.runs[i]? = some run → col[i]? = run[j]?) ∧
        m * n = col.sum ∧ Quantile col (997 / 1000) q := by
  obtain ⟨time, htime⟩ : ∃ t, t = uniformGrid (4.25e9 : ℝ) 10e6 425 := ⟨_, rfl⟩
  have ht : getTimeArray (4.25e9 : ℝ) 0 10e6 = .ok time := by
    rw [htime]
    exact C19_uniform_partial (4.25e9 : ℝ) 10e6 425 (by norm_num) (by norm_num) (by norm_num)
  have htl : time.length = 425 := by rw [htime]; simp [uniformGrid]
  have hne : time ≠ [] := by intro h; rw [h] at htl; cases htl
  -- the runs
  have hrun : ∀ i : Nat, ∃ run, basinFigRun g c d time comet (draw i) (200 + i) (ent i) = .ok run ∧
      BasinRun g c d (if comet then .comet else .asteroid) time (ent i) run := by
    intro i
    have hc1 := physical_reseed hc (draw i) (200 + i)
    have hd1 := data_reseed hd (draw i) (200 + i)
    have hr1 := runnable_reseed hr (draw i) (200 + i)
    obtain ⟨df, h1, h2⟩ := C101_drawn g hg _ d hc1 hd1 hr1 (ent i).1 (ent i).2.1 .none
    obtain ⟨k, hk⟩ : ∃ k : Kind, k = if comet then .comet else .asteroid := ⟨_, rfl⟩
    have hdf : ∀ r ∈ df, r.rest.crater.isbasin = true → 0 < r.rest.crater.rad := by
      rw [craterList_states] at h1
      cases h3 : craterBasinList g.pair (c.reseed (draw i) (200 + i)) d
          (states g d.basins.length (ent i).1 (ent i).2.1 .none) with
      | error x => rw [h3] at h1; cases h1
      | ok p =>
        rw [h3] at h1
        injection h1 with h1
        rw [Prod.mk.injEq] at h1
        obtain ⟨rfl, -⟩ := h1
        exact craterBasinList_rad g.pair hd1 _ p.2 p.1 h3
    have hck := physical_kind hc1 k
    obtain ⟨m, s', m1, m2⟩ := iceBasins_ok g hg hck df hdf time hne (ent i).2.2
    have hb := iceBasins_spec g hg hc1 hcom k df hdf time hne _ _ _ m1
    refine ⟨m.map (fun x => perKg c * x), ?_, ?_⟩
    · unfold basinFigRun
      simp only [h1, bind, Except.bind]
      have ek : (if comet = true then (c.reseed (draw i) (200 + i)).comet
          else c.reseed (draw i) (200 + i)) = cfgOf (c.reseed (draw i) (200 + i)) k := by
        rw [hk]; cases comet <;> rfl
      rw [ek]
      unfold basinIceRng
      simp only [RngArg.start, m1, bind, Except.bind]
      rw [thicknessOf_eq hck, perKg_kind]
      rfl
    · rw [← hk]
      refine ⟨df, m, s', drawn_reseed h2, hb, by rw [List.length_map, m2.1], ?_⟩
      intro j x hx
      rw [List.getElem?_map] at hx
      obtain ⟨y, hy, rfl⟩ := Option.map_eq_some_iff.1 hx
      exact ⟨y, hy, perKg_mass hc y⟩
  choose run hrun1 hrun2 using hrun
  obtain ⟨runs, hruns⟩ : ∃ t, t = (List.range n).map run := ⟨_, rfl⟩
  have hm : (List.range n).mapM
      (fun i => basinFigRun g c d time comet (draw i) (200 + i) (ent i)) = .ok runs := by
    rw [hruns]
    exact mapM_eq_map _ _ _ (fun i _ => hrun1 i)
  have hrl : ∀ r ∈ runs, r.length = 425 := by
    intro r h
    rw [hruns] at h
    obtain ⟨i, -, rfl⟩ := List.mem_map.1 h
    obtain ⟨-, -, -, -, -, h, -⟩ := hrun2 i
    rw [h, htl]
  have hcol : ∀ j, j < 425 → (column runs j).length = n := by
    intro j hj
    rw [(column_spec hj runs hrl).1, hruns, List.length_map, List.length_range]
  have hcne : ∀ j, j < 425 → column runs j ≠ [] := by
    intro j hj h
    have := hcol j hj
    rw [h] at this
    simp at this
    omega
  have hq : ∀ j, j < 425 → ∃ v, quantile (997 / 1000) (column runs j) = some v ∧
      Quantile (column runs j) (997 / 1000) v :=
    fun j hj => quantile_spec _ (by norm_num) (by norm_num) _ (hcne j hj)
  obtain ⟨means, hmeans⟩ : ∃ t, t = (List.range 425).map
      (fun j => (column runs j).sum / ((column runs j).length : ℝ)) := ⟨_, rfl⟩
  obtain ⟨pcts, hpcts⟩ : ∃ t, t = (List.range 425).map
      (fun j => (quantile (997 / 1000) (column runs j)).getD 0) := ⟨_, rfl⟩
  have hml : means.length = 425 := by rw [hmeans]; simp
  have hpl : pcts.length = 425 := by rw [hpcts]; simp
  have e1 : ((List.range time.length).map (column runs)).mapM rowMean = .ok means := by
    rw [htl, List.mapM_map, hmeans]
    apply mapM_all
    intro j hj
    unfold rowMean
    rw [Function.comp, if_neg (hcne j (List.mem_range.1 hj))]
  have e2 : ((List.range time.length).map (column runs)).mapM
      (fun l => orNan (quantile (997 / 1000) l)) = .ok pcts := by
    rw [htl, List.mapM_map, hpcts]
    apply mapM_all
    intro j hj
    obtain ⟨v, hv, -⟩ := hq j (List.mem_range.1 hj)
    rw [Function.comp, hv]
    rfl
  obtain ⟨mean, f1, f2⟩ := movingAvg_three means (by omega)
  obtain ⟨pct, f3, f4⟩ := movingAvg_three pcts (by omega)
  refine ⟨⟨time, runs, mean, pct⟩, means, pcts, ?_, htl, ?_, ?_, ?_, f2, f4, hml, hpl, ?_⟩
  · unfold basinFig
    simp only [ht, hm, liftPy, bind, Except.bind, e1, e2, f1, f3]
  · intro i t hi
    change time[i]? = _ at hi
    rw [htime] at hi
    unfold uniformGrid at hi
    rw [List.getElem?_map] at hi
    obtain ⟨j, hj, rfl⟩ := Option.map_eq_some_iff.1 hi
    obtain ⟨_, h⟩ := List.getElem?_eq_some_iff.1 hj
    rw [List.getElem_range] at h
    rw [← h]
    norm_num
  · simp [hruns]
  · intro i r hi
    change runs[i]? = _ at hi
    rw [hruns, List.getElem?_map] at hi
    obtain ⟨j, hj, rfl⟩ := Option.map_eq_some_iff.1 hi
    obtain rfl : i = j := by
      have := List.getElem?_eq_some_iff.1 hj
      obtain ⟨_, h⟩ := this
      rw [List.getElem_range] at h
      exact h
    exact hrun2 i
  · intro j hj
    obtain ⟨v, hv, hs⟩ := hq j hj
    refine ⟨column runs j, (column runs j).sum / ((column runs j).length : ℝ), v, hcol j hj, ?_, ?_,
      (column_spec hj runs hrl).2, ?_, hs⟩
    · rw [hmeans, List.getElem?_map, List.getElem?_range hj]; rfl
    · rw [hpcts, List.getElem?_map, List.getElem?_range hj, Option.map_some, hv]; rfl
    · rw [hcol j hj]
      have : (n : ℝ) ≠ 0 := by exact_mod_cast hn.ne'
      field_simp

/-- The figure for the default configuration. -/
example : ∃ b means pcts, basinFig flipGen (RunCfg.default 1) (shippedData [] sortDesc id id) true
    500 (fun _ => 1) (fun _ => (true, true, false)) = .ok b ∧ Smooth3 means b.mean ∧
    Smooth3 pcts b.pct := by
  obtain ⟨b, means, pcts, h1, -, -, -, -, h2, h3, -⟩ := C102_figure flipGen flipGen_lawful _ _
    (default_physical 1) (default_data _ _ _ _ sortDesc_spec 1) (default_runnable _ _ _ _ 1) rfl
    true 500 (by norm_num) (fun _ => 1) (fun _ => (true, true, false))
  exact ⟨b, means, pcts, h1, h2, h3⟩

end MoonPIES
