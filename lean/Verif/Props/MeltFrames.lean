import Verif.Lemmas.MeltFrames
import Verif.Spec.MeltFrames
import Verif.Lemmas.Linspace
import Verif.Props.Main

/-!
# C83: the generated melt table
-/

namespace MoonPIES

set_option linter.unusedSectionVars false

/-- The chunks of a pool finish in some order, each once; without a pool there are none. -/
def PoolOrder (mrs : List ℝ) (ncpus : Nat) (order : List Nat) : Prop :=
  ncpus ≤ 1 ∨ order.Perm (List.range (chunkCount mrs.length (chunkSize mrs.length ncpus)))

/-- **C83** (what the tables hold) For every melt function, all ratios, temperatures and numbers of
seeds, any number of CPUs and any order in which the chunks of work finish: the two frames are
labelled by the ratios and temperatures, and each cell holds the mean, respectively the population
standard deviation, of the melt fractions for its own ratio and temperature over the seeds
`0, ..., nseed - 1`.  With no seeds every cell is NaN. -/
theorem C83_cells (f : ℝ → ℝ → Nat → Except PyErr ℝ) (mrs temps : List ℝ) (nseed : Nat)
    (parallel : Bool) (cpus : Nat) (order : List Nat)
    (hne : (if parallel then cpus else 1) ≤ 1 ∨ mrs ≠ [])
    (ho : PoolOrder mrs (if parallel then cpus else 1) order) (mean std : Frame ℝ)
    (h : makeMeltFrames Real.sqrt f mrs temps nseed parallel cpus order = .ok (mean, std)) :
    Spec.Labelled mean mrs temps ∧ Spec.Labelled std mrs temps ∧
    ∀ (i j : Nat) mr t, mrs[i]? = some mr → temps[j]? = some t →
      ∃ x : Nat → ℝ, (∀ s, s < nseed → f mr t s = .ok (x s)) ∧
        (0 < nseed → ∃ m σ, mean.cell i j = some (some m) ∧ std.cell i j = some (some σ) ∧
          Spec.MeanStd nseed x m σ) ∧
        (nseed = 0 → mean.cell i j = some none ∧ std.cell i j = some none) := by
  unfold makeMeltFrames at h
  simp only [] at h
  obtain ⟨arr, ha, h⟩ := bind_ok_inv h
  rw [getMeltArr_eq f mrs temps _ _ order hne ho] at ha
  simp only [Except.ok.injEq, Prod.mk.injEq] at h
  obtain ⟨rfl, rfl⟩ := h
  obtain ⟨hl, hi⟩ := mapM_ok_inv _ mrs arr ha
  have hrow : ∀ row ∈ arr, row.length = temps.length := by
    intro row hr
    obtain ⟨i, hir⟩ := List.mem_iff_getElem?.1 hr
    have : i < mrs.length := by rw [← hl]; exact (List.getElem?_eq_some_iff.1 hir).1
    obtain ⟨b, hb, hb'⟩ := hi i _ (List.getElem?_eq_getElem this)
    rw [hir] at hb
    cases hb
    exact (mapM_ok_inv _ temps row hb').1
  refine ⟨⟨rfl, rfl, by simp [hl], ?_⟩, ⟨rfl, rfl, by simp [hl], ?_⟩, ?_⟩
  · intro row hr
    obtain ⟨r, hr', rfl⟩ := List.mem_map.1 hr
    simp [hrow r hr']
  · intro row hr
    obtain ⟨r, hr', rfl⟩ := List.mem_map.1 hr
    simp [hrow r hr']
  · intro i j mr t hmr ht
    obtain ⟨row, hr, hrow'⟩ := hi i mr hmr
    obtain ⟨l, hl', hls⟩ := (mapM_ok_inv _ temps row hrow').2 j t ht
    obtain ⟨x, hx, rfl⟩ := mapM_range_inv _ nseed l hls
    have hm : (⟨mrs, temps, arr.map (fun row => row.map npMean)⟩ : Frame ℝ).cell i j =
        some (npMean ((List.range nseed).map x)) := by
      simp [Frame.cell, hr, hl']
    have hs : (⟨mrs, temps, arr.map (fun row => row.map (npStd Real.sqrt))⟩ : Frame ℝ).cell i j =
        some (npStd Real.sqrt ((List.range nseed).map x)) := by
      simp [Frame.cell, hr, hl']
    rw [hm, hs]
    refine ⟨x, hx, fun hn => ?_, fun hn => ?_⟩
    · have hn' : (0 : ℝ) < nseed := by exact_mod_cast hn
      rw [npStd, npMean_range nseed hn, npVar_range nseed hn]
      refine ⟨_, _, rfl, rfl, ?_, Real.sqrt_nonneg _, ?_⟩
      · field_simp
      · rw [Real.sq_sqrt (div_nonneg (Finset.sum_nonneg fun _ _ => sq_nonneg _) hn'.le)]
        field_simp
    · subst hn
      exact ⟨rfl, rfl⟩

/-- **C83** (the table as the code makes it) For all ratios `≥ 0` and temperatures in `[45, 510]` K,
at least one seed, any number of CPUs and any finishing order the tables are produced; every mean
is a fraction in `[0, 1]` and every standard deviation is in `[0, 1/2]`.  Ejecta below 110 K melts
nothing and pure ejecta (ratio 0) at 110 K or more melts all, both with no scatter. -/
theorem C83_generated (draws : Nat → Nat → List Nat) (hd : ∀ s, GoodDraw 1000 (draws s))
    (mrs temps : List ℝ) (hm : ∀ m ∈ mrs, 0 ≤ m) (ht : ∀ t ∈ temps, 45 ≤ t ∧ t ≤ 510)
    (nseed : Nat) (hn : 0 < nseed) (parallel : Bool) (cpus : Nat) (order : List Nat)
    (hne : (if parallel then cpus else 1) ≤ 1 ∨ mrs ≠ [])
    (ho : PoolOrder mrs (if parallel then cpus else 1) order) :
    ∃ mean std, makeMeltFrames Real.sqrt (meltCall draws) mrs temps nseed parallel cpus order =
        .ok (mean, std) ∧ Spec.Labelled mean mrs temps ∧ Spec.Labelled std mrs temps ∧
      ∀ (i j : Nat) mr t, mrs[i]? = some mr → temps[j]? = some t →
        ∃ m σ, mean.cell i j = some (some m) ∧ std.cell i j = some (some σ) ∧
          0 ≤ m ∧ m ≤ 1 ∧ 0 ≤ σ ∧ σ ≤ 1 / 2 ∧
          (t < 110 → m = 0 ∧ σ = 0) ∧ (mr = 0 → 110 ≤ t → m = 1 ∧ σ = 0) := by
  have hcall : ∀ (mr t : ℝ) (s : Nat), 0 ≤ mr → 45 ≤ t ∧ t ≤ 510 →
      ∃ x, meltCall draws mr t s = .ok x ∧ 0 ≤ x ∧ x ≤ 1 := by
    intro mr t s h1 h2
    obtain ⟨x, k, hx, h3, h4, -⟩ := C63_returns (meltDefaults t) mr h1 (draws s) (hd s) h2
      (by norm_num [meltDefaults])
    exact ⟨x, by unfold meltCall; rw [hx]; rfl, h3, h4⟩
  obtain ⟨arr, ha⟩ : ∃ arr, meltArrSeq (meltCall draws) mrs temps (List.range nseed) = .ok arr := by
    cases hq : meltArrSeq (meltCall draws) mrs temps (List.range nseed) with
    | ok arr => exact ⟨arr, rfl⟩
    | error e =>
      obtain ⟨mr, hmr, e1, h1⟩ := (mapM_error_iff _ mrs).1 ⟨e, hq⟩
      obtain ⟨t, htt, e2, h2⟩ := (mapM_error_iff _ temps).1 ⟨e1, h1⟩
      obtain ⟨s, -, e3, h3⟩ := (mapM_error_iff _ (List.range nseed)).1 ⟨e2, h2⟩
      obtain ⟨x, hx, -⟩ := hcall mr t s (hm mr hmr) (ht t htt)
      rw [hx] at h3
      cases h3
  have hb := (getMeltArr_eq (meltCall draws) mrs temps (List.range nseed) _ order hne ho arr).2 ha
  obtain ⟨mean, std, h⟩ : ∃ mean std, makeMeltFrames Real.sqrt (meltCall draws) mrs temps nseed
      parallel cpus order = .ok (mean, std) := by
    unfold makeMeltFrames
    simp only [bind, Except.bind, hb]
    exact ⟨_, _, rfl⟩
  obtain ⟨l1, l2, hc⟩ := C83_cells (meltCall draws) mrs temps nseed parallel cpus order hne ho
    mean std h
  refine ⟨mean, std, h, l1, l2, ?_⟩
  intro i j mr t hmr htt
  have hmr0 := hm mr (List.mem_of_getElem? hmr)
  have ht0 := ht t (List.mem_of_getElem? htt)
  obtain ⟨x, hx, hcell, -⟩ := hc i j mr t hmr htt
  obtain ⟨m, σ, c1, c2, hms⟩ := hcell hn
  have hn' : (0 : ℝ) < nseed := by exact_mod_cast hn
  have hx01 : ∀ s, s < nseed → 0 ≤ x s ∧ x s ≤ 1 := by
    intro s hs
    obtain ⟨y, hy, hy'⟩ := hcall mr t s hmr0 ht0
    rw [hx s hs] at hy
    cases hy
    exact hy'
  have hconst : ∀ c : ℝ, (∀ s, s < nseed → x s = c) → m = c ∧ σ = 0 := by
    intro c hcc
    have e1 : ∑ s ∈ Finset.range nseed, x s = nseed * c := by
      rw [Finset.sum_congr rfl (fun s hs => hcc s (Finset.mem_range.1 hs))]; simp
    have hmc : m = c := by
      have := hms.mean
      rw [e1] at this
      exact mul_left_cancel₀ hn'.ne' this
    have e2 : ∑ s ∈ Finset.range nseed, (x s - m) ^ 2 = 0 := by
      apply Finset.sum_eq_zero
      intro s hs
      rw [hcc s (Finset.mem_range.1 hs), hmc]; ring
    have := hms.std
    rw [e2, mul_eq_zero] at this
    exact ⟨hmc, by simpa using this.resolve_left hn'.ne'⟩
  refine ⟨m, σ, c1, c2, ?_, ?_, hms.nonneg, ?_, ?_, ?_⟩
  · have : 0 ≤ nseed * m := by
      rw [hms.mean]
      exact Finset.sum_nonneg fun s hs => (hx01 s (Finset.mem_range.1 hs)).1
    exact nonneg_of_mul_nonneg_right this hn'
  · have : nseed * m ≤ nseed * 1 := by
      rw [hms.mean]
      calc ∑ s ∈ Finset.range nseed, x s ≤ ∑ s ∈ Finset.range nseed, (1 : ℝ) :=
            Finset.sum_le_sum fun s hs => (hx01 s (Finset.mem_range.1 hs)).2
        _ = nseed * 1 := by simp
    exact le_of_mul_le_mul_left this hn'
  · have hmq : m = (∑ s ∈ Finset.range nseed, x s) / nseed := by
      rw [← hms.mean]; field_simp
    have hq := var_le_quarter nseed hn x hx01
    rw [← hmq, ← hms.std, mul_div_cancel_left₀ _ hn'.ne'] at hq
    nlinarith [hms.nonneg]
  · intro hcold
    apply hconst
    intro s hs
    have := C66_cold heat1d (meltDefaults t) mr hmr0 (draws s) (hd s) hcold
      (by norm_num [meltDefaults])
    have h2 := hx s hs
    unfold meltCall at h2
    rw [this] at h2
    simpa [Except.map] using h2.symm
  · rintro rfl hwarm
    apply hconst
    intro s hs
    have := C66_pure_ejecta heat1d (meltDefaults t) (draws s)
    have h2 := hx s hs
    unfold meltCall at h2
    rw [this, if_pos (show (meltDefaults t).meltT ≤ (meltDefaults t).ejectaT from hwarm)] at h2
    simpa [Except.map] using h2.symm

/-! ## The script -/

/-- The ratios of the script: `i / (40 - i)`. -/
theorem script_ratios : fracsToRatios (openGrid 40 : List ℝ) =
    .ok ((List.range 40).map (fun i : Nat => (i : ℝ) / (40 - i))) := by
  unfold fracsToRatios openGrid
  have key : ∀ l : List Nat, (∀ i ∈ l, i < 40) →
      (l.map (fun i : Nat => (i : ℝ) * (1 / ((40 : Nat) : ℝ)))).mapM
        (fun f => if 1 - f = 0 then (.error .zeroDivisionError : Except PyErr ℝ)
          else .ok (f / (1 - f))) = .ok (l.map (fun i : Nat => (i : ℝ) / (40 - i))) := by
    intro l
    induction l with
    | nil => intro _; rfl
    | cons i l ih =>
      intro h
      have hi : (i : ℝ) < 40 := by exact_mod_cast h i (by simp)
      have h1 : (1 : ℝ) - (i : ℝ) * (1 / ((40 : Nat) : ℝ)) ≠ 0 := by
        push_cast
        intro h0
        linarith
      rw [List.map_cons, List.mapM_cons, if_neg h1, ih (fun j hj => h j (by simp [hj]))]
      simp only [bind, Except.bind, pure, Except.pure, List.map_cons, Except.ok.injEq,
        List.cons.injEq, and_true]
      have h2 : (40 : ℝ) - i ≠ 0 := by linarith
      push_cast at h1 ⊢
      field_simp
  exact key (List.range 40) (by simp)

/-- The temperatures of the script: 110, 115, ..., 510 K. -/
theorem script_temps : linspace (110 : ℝ) 510 81 =
    .ok ((List.range 81).map (fun j : Nat => ((110 + 5 * j : Nat) : ℝ))) := by
  unfold linspace
  rw [if_neg (by decide), if_neg (by decide)]
  congr 1
  apply List.map_congr_left
  intro j _
  push_cast
  norm_num
  ring

/-- Distinct ratios keep distinct labels in the file. -/
theorem label_lt (i j : Nat) (hij : i < j) (hj : j < 40) :
    fmtG ((i : ℝ) / (40 - i)) < fmtG ((j : ℝ) / (40 - j)) := by
  have h1 := fmtG_near ((i : ℝ) / (40 - i))
  have h2 := fmtG_near ((j : ℝ) / (40 - j))
  have hi' : (i : ℝ) + 1 ≤ j := by exact_mod_cast hij
  have hj' : (j : ℝ) + 1 ≤ 40 := by exact_mod_cast hj
  have hi0 : (0 : ℝ) ≤ i := by positivity
  have d1 : (0 : ℝ) < 40 - i := by linarith
  have d2 : (0 : ℝ) < 40 - j := by linarith
  have p1 : 0 ≤ (i : ℝ) / (40 - i) := by positivity
  have p2 : 0 ≤ (j : ℝ) / (40 - j) := by positivity
  rw [abs_of_nonneg p1] at h1
  rw [abs_of_nonneg p2] at h2
  have q1 : (i : ℝ) / (40 - i) ≤ 39 := by rw [div_le_iff₀ d1]; nlinarith
  have q2 : (j : ℝ) / (40 - j) ≤ 39 := by rw [div_le_iff₀ d2]; nlinarith
  have gap : 1 / 40 ≤ (j : ℝ) / (40 - j) - (i : ℝ) / (40 - i) := by
    rw [div_sub_div _ _ d2.ne' d1.ne', div_le_div_iff₀ (by norm_num) (by positivity)]
    nlinarith
  have a1 := (abs_le.1 h1).2
  have a2 := (abs_le.1 h2).1
  norm_num at a1 a2
  linarith

theorem mapM_some_map {α β : Type} (f : α → Option β) (g : α → β) : ∀ (l : List α),
    (∀ x ∈ l, f x = some (g x)) → l.mapM f = some (l.map g)
  | [], _ => rfl
  | a :: l, h => by
    rw [List.mapM_cons, h a (by simp), mapM_some_map f g l (fun x hx => h x (by simp [hx]))]
    rfl

/-- **C83** (the script) For every way the seeds place the ejecta, any number of CPUs and any
finishing order, the script produces its tables, and the saved table of means reads back with
strictly increasing ratios (six digits of `i / (40 - i)`) from 0 to 39, the temperatures 110, 115,
..., 510, a value in `[0, 1]` for each pair, and 1 throughout the first row. -/
theorem C83_script (draws : Nat → Nat → List Nat) (hd : ∀ s, GoodDraw 1000 (draws s)) (cpus : Nat)
    (order : List Nat)
    (ho : cpus ≤ 1 ∨ order.Perm (List.range (chunkCount 40 (chunkSize 40 cpus)))) :
    ∃ mean std tbl, meltScript Real.sqrt draws cpus order = .ok (mean, std) ∧
      mean.saved = some tbl ∧
      tbl.temps = (List.range 81).map (fun j : Nat => ((110 + 5 * j : Nat) : ℝ)) ∧
      tbl.rows.length = 40 ∧ (tbl.rows.map (·.1)).Pairwise (· < ·) ∧
      (∀ (i : Nat) r, tbl.rows[i]? = some r →
        |r.1 - (i : ℝ) / (40 - i)| ≤ 5 / 10 ^ 6 * ((i : ℝ) / (40 - i)) ∧ r.2.length = 81 ∧
        (∀ v ∈ r.2, 0 ≤ v ∧ v ≤ 1) ∧ (i = 0 → r.1 = 0 ∧ ∀ v ∈ r.2, v = 1) ∧
        (i = 39 → r.1 = 39)) := by
  obtain ⟨mrs, hmrs⟩ : ∃ l, l = (List.range 40).map (fun i : Nat => (i : ℝ) / (40 - i)) := ⟨_, rfl⟩
  obtain ⟨temps, htemps⟩ : ∃ l, l = (List.range 81).map (fun j : Nat => ((110 + 5 * j : Nat) : ℝ)) :=
    ⟨_, rfl⟩
  have hml : mrs.length = 40 := by simp [hmrs]
  have htl : temps.length = 81 := by simp [htemps]
  obtain ⟨mean, std, h, l1, -, hc⟩ := C83_generated draws hd mrs temps
    (by
      intro m hm
      rw [hmrs] at hm
      obtain ⟨i, hi, rfl⟩ := List.mem_map.1 hm
      have : (i : ℝ) < 40 := by exact_mod_cast List.mem_range.1 hi
      exact div_nonneg (by positivity) (by linarith))
    (by
      intro t ht
      rw [htemps] at ht
      obtain ⟨j, hj, rfl⟩ := List.mem_map.1 ht
      have : (j : ℝ) ≤ 80 := by exact_mod_cast Nat.le_of_lt_succ (List.mem_range.1 hj)
      push_cast
      constructor <;> linarith [show (0 : ℝ) ≤ j by positivity])
    20 (by norm_num) true cpus order (Or.inr (by intro e; rw [e] at hml; simp at hml))
    (by unfold PoolOrder; rw [hml]; simpa using ho)
  have hcell : ∀ (i : Nat) row, mean.cells[i]? = some row → i < 40 ∧ row.length = 81 ∧
      ∀ c ∈ row, ∃ v, c = some v ∧ 0 ≤ v ∧ v ≤ 1 ∧ (i = 0 → v = 1) := by
    intro i row hir
    have hi : i < 40 := by
      have := (List.getElem?_eq_some_iff.1 hir).1
      rw [l1.rows, hml] at this
      exact this
    have hrl : row.length = 81 := by rw [l1.cols row (List.mem_of_getElem? hir), htl]
    refine ⟨hi, hrl, ?_⟩
    intro c hcr
    obtain ⟨j, hj⟩ := List.mem_iff_getElem?.1 hcr
    have hj81 : j < 81 := by
      have := (List.getElem?_eq_some_iff.1 hj).1
      omega
    obtain ⟨m, σ, c1, -, c2, c3, -, -, -, c4⟩ := hc i j ((i : ℝ) / (40 - i)) ((110 + 5 * j : Nat) : ℝ)
      (by rw [hmrs]; simp [hi]) (by rw [htemps]; simp [hj81])
    unfold Frame.cell at c1
    rw [hir] at c1
    simp only [hj, Option.some.injEq] at c1
    refine ⟨m, c1, c2, c3, ?_⟩
    rintro rfl
    refine (c4 (by simp) ?_).1
    push_cast
    linarith [show (0 : ℝ) ≤ j by positivity]
  obtain ⟨val, hval⟩ : ∃ g : Option ℝ → ℝ, g = fun c => fmtG (c.getD 0) := ⟨_, rfl⟩
  have hcells : mean.cells.mapM (fun row => row.mapM (fun c => c.map fmtG)) =
      some (mean.cells.map (fun row => row.map val)) := by
    apply mapM_some_map
    intro row hr
    obtain ⟨i, hir⟩ := List.mem_iff_getElem?.1 hr
    apply mapM_some_map
    intro c hcr
    obtain ⟨v, rfl, -⟩ := (hcell i row hir).2.2 c hcr
    rw [hval]; rfl
  refine ⟨mean, std, ⟨mean.columns.map fmtG, (mean.index.map fmtG).zip
    (mean.cells.map (fun row => row.map val))⟩, ?_, ?_, ?_, ?_, ?_, ?_⟩
  · unfold meltScript
    rw [script_ratios, script_temps]
    simp only [bind, Except.bind, ← hmrs, ← htemps]
    exact h
  · unfold Frame.saved
    rw [hcells]
  · rw [l1.columns, htemps, List.map_map]
    apply List.map_congr_left
    intro j hj
    have := List.mem_range.1 hj
    exact fmtG_nat _ (by omega)
  · simp [l1.index, l1.rows, hml]
  · rw [List.map_fst_zip (by simp [l1.index, l1.rows]), l1.index, hmrs, List.map_map,
      List.pairwise_map]
    have : (List.range 40).Pairwise (· < ·) := List.pairwise_lt_range
    refine List.Pairwise.imp_of_mem ?_ this
    intro i j _ hj hij
    exact label_lt i j hij (List.mem_range.1 hj)
  · intro i r hr
    rw [List.getElem?_zip_eq_some] at hr
    obtain ⟨hr1, hr2⟩ := hr
    rw [List.getElem?_map] at hr1 hr2
    obtain ⟨row, hrow, hr3⟩ := Option.map_eq_some_iff.1 hr2
    obtain ⟨hi, hrl, hv⟩ := hcell i row hrow
    have hr1' : r.1 = fmtG ((i : ℝ) / (40 - i)) := by
      rw [l1.index, hmrs] at hr1
      simpa [hi] using hr1.symm
    have hi' : (i : ℝ) < 40 := by exact_mod_cast hi
    have hpos : 0 ≤ (i : ℝ) / (40 - i) := div_nonneg (by positivity) (by linarith)
    refine ⟨?_, by rw [← hr3]; simp [hrl], ?_, ?_, ?_⟩
    · rw [hr1']
      have := fmtG_near ((i : ℝ) / (40 - i))
      rwa [abs_of_nonneg hpos] at this
    · intro v hvr
      rw [← hr3] at hvr
      obtain ⟨c, hcr, rfl⟩ := List.mem_map.1 hvr
      obtain ⟨v, rfl, h0, h1, -⟩ := hv c hcr
      rw [hval]
      exact ⟨fmtG_nonneg _ h0, fmtG_le_one _ h0 h1⟩
    · rintro rfl
      refine ⟨by rw [hr1']; simp [fmtG], ?_⟩
      intro v hvr
      rw [← hr3] at hvr
      obtain ⟨c, hcr, rfl⟩ := List.mem_map.1 hvr
      obtain ⟨v, rfl, -, -, h1⟩ := hv c hcr
      rw [hval, h1 rfl]
      have := fmtG_nat (K := ℝ) 1 (by norm_num)
      simpa using this
    · rintro rfl
      rw [hr1']
      have := fmtG_nat (K := ℝ) 39 (by norm_num)
      push_cast at this ⊢
      norm_num
      exact this

/-- **C83** (using it) With a freshly generated table instead of the shipped one the default
configuration still completes every run. -/
theorem C83_run {σ : Type} (nk : List (ℝ × ℝ)) (sortAges : CraterTable → CraterTable)
    (sortNk : List (ℝ × ℝ) → List (ℝ × ℝ)) (setOrder : List (List Char) → List (List Char))
    (draws : Nat → Nat → List Nat) (hd : ∀ s, GoodDraw 1000 (draws s)) (cpus : Nat)
    (order : List Nat)
    (ho : cpus ≤ 1 ∨ order.Perm (List.range (chunkCount 40 (chunkSize 40 cpus))))
    (g : Gen σ) (hg : LawfulGen g) (hs : Spec.SortDesc sortAges) (seed : Int) :
    ∃ mean std tbl, meltScript Real.sqrt draws cpus order = .ok (mean, std) ∧
      mean.saved = some tbl ∧ ∃ out, runMain g (RunCfg.default seed)
        { shippedData nk sortAges sortNk setOrder with melt := tbl } = .ok out := by
  obtain ⟨mean, std, tbl, h1, h2, ht, hl, -, hr⟩ := C83_script draws hd cpus order ho
  refine ⟨mean, std, tbl, h1, h2, ?_⟩
  have hrow : ∀ r ∈ tbl.rows, r.2.length = tbl.temps.length ∧ ∀ v ∈ r.2, 0 ≤ v ∧ v ≤ 1 := by
    intro r hrm
    obtain ⟨i, hi⟩ := List.mem_iff_getElem?.1 hrm
    obtain ⟨-, a, b, -⟩ := hr i r hi
    exact ⟨by rw [a, ht]; simp, b⟩
  have hfirst : (0 : ℝ) ∈ tbl.rows.map (·.1) := by
    have hi : 0 < tbl.rows.length := by omega
    obtain ⟨-, -, -, a, -⟩ := hr 0 _ (List.getElem?_eq_getElem hi)
    exact List.mem_map.2 ⟨_, List.getElem_mem hi, (a rfl).1⟩
  have hlast : (39 : ℝ) ∈ tbl.rows.map (·.1) := by
    have hi : 39 < tbl.rows.length := by omega
    obtain ⟨-, -, -, -, a⟩ := hr 39 _ (List.getElem?_eq_getElem hi)
    exact List.mem_map.2 ⟨_, List.getElem_mem hi, a rfl⟩
  have t0 : (110 : ℝ) ∈ tbl.temps := by
    rw [ht]; exact List.mem_map.2 ⟨0, by simp, by norm_num⟩
  have t1 : (510 : ℝ) ∈ tbl.temps := by
    rw [ht]; exact List.mem_map.2 ⟨80, by simp, by norm_num⟩
  have hdata := default_data nk sortAges sortNk setOrder hs seed
  have hrun := default_runnable nk sortAges sortNk setOrder seed
  refine C72_returns g hg _ _ (default_physical seed) { hdata with melt := ?_ }
    { hrun with covers := ?_ }
  · exact at_range _ (fun r hr => (hrow r hr).2)
  · intro _
    refine ⟨complete_of_rows _ (fun r hr => (hrow r hr).1), ?_, ?_, ?_⟩
    · intro e
      have : tbl.rows = [] := e
      rw [this] at hl; simp at hl
    · intro e
      have : tbl.temps = [] := e
      rw [this] at t0; simp at t0
    · intro dist m h0 h1 h b t htt
      obtain ⟨hm0, hm1⟩ := default_mixing dist m h0 h1 h
      refine ⟨0, 39, 110, 510, hfirst, hlast, t0, t1, hm0, hm1, ?_, ?_⟩ <;>
        cases htt <;> norm_num [RunCfg.bsed, RunCfg.default]

/-- **C83** (the shipped file) The labels of the shipped table of means are the ones the script
writes. -/
theorem C83_shipped_labels :
    (do let mrs ← fracsToRatios (openGrid 40 : List ℚ)
        let temps ← linspace (110 : ℚ) 510 81
        .ok (mrs.map fmtG, temps.map fmtG)) =
      .ok (meltFile.map (fun r => (r.1 : ℚ) / 10 ^ 10), meltTemps.map (fun t : Nat => (t : ℚ))) := by
  decide +kernel

/-! ## Examples -/

/-- The mean and squared deviation of four seeds, and no seeds. -/
example : npMean ([1, 0, 1 / 2, 1 / 2] : List ℚ) = some (1 / 2) ∧
    npVar ([1, 0, 1 / 2, 1 / 2] : List ℚ) = some (1 / 8) ∧ npMean ([] : List ℚ) = none := by
  decide +kernel

/-- Six digits, ties to even. -/
example : fmtG (1 / 39 : ℚ) = 25641 / 1000000 ∧ fmtG (37 / 3 : ℚ) = 123333 / 10000 ∧
    fmtG (12345650 : ℚ) = 12345600 ∧ fmtG (9999999 : ℚ) = 10000000 := by decide +kernel

/-- A toy melt function on two ratios, two temperatures and two seeds, sequentially and in a pool
of two: the same tables. -/
example : ((makeMeltFrames id (fun (mr t : ℚ) s => .ok (mr * t + s)) [1, 2] [10, 20] 2 true 2
      [1, 0]).toOption.map (fun r => (r.1.cells, r.2.cells))) =
    some ([[some (21 / 2), some (41 / 2)], [some (41 / 2), some (81 / 2)]],
      [[some (1 / 4), some (1 / 4)], [some (1 / 4), some (1 / 4)]]) ∧
    ((makeMeltFrames id (fun (mr t : ℚ) s => .ok (mr * t + s)) [1, 2] [10, 20] 2 false 2
      []).toOption.map (fun r => (r.1.cells, r.2.cells))) =
    some ([[some (21 / 2), some (41 / 2)], [some (41 / 2), some (81 / 2)]],
      [[some (1 / 4), some (1 / 4)], [some (1 / 4), some (1 / 4)]]) := by decide +kernel

/-- The hypotheses of `C83_script` and `C83_run` hold for generators that take the first cells and
two CPUs whose five-row chunks finish in reverse. -/
example : ∃ mean std tbl, meltScript Real.sqrt (fun _ => List.range) 2 [7, 6, 5, 4, 3, 2, 1, 0] =
    .ok (mean, std) ∧ mean.saved = some tbl ∧ ∃ out, runMain constGen (RunCfg.default 1)
      { shippedData [] sortDesc id id with melt := tbl } = .ok out :=
  C83_run [] sortDesc id id (fun _ => List.range) (fun _ => goodDraw_range 1000) 2 _
    (Or.inr (by decide)) constGen constGen_lawful sortDesc_spec 1

end MoonPIES
