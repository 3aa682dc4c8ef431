import Verif.Spec.Records
import Verif.Props.Average
import Verif.Props.Damp
import Mathlib.Order.Bounds.Basic

/-!
# C162: which layers survive the erosion of Cannon et al.
-/

namespace MoonPIES

open Spec

section
set_option linter.unusedSectionVars false
variable {K : Type} [Field K] [LinearOrder K] [IsStrictOrderedRing K]

theorem balance_cons (shield ed : K) (p : K × K) (r : List (K × K)) :
    balance shield ed (p :: r) = keeps shield ed p + balance shield ed r := by
  unfold balance keeps
  by_cases h : p.2 ≤ shield
  · rw [List.filter_cons_of_pos (by simpa using h), if_pos h, List.map_cons, List.sum_cons, List.length_cons]
    push_cast
    ring
  · rw [List.filter_cons_of_neg (by simpa using h), if_neg h, List.map_cons, List.sum_cons]
    ring

theorem balance_nil (shield ed : K) : balance shield ed [] = 0 := by simp [balance]

theorem pile_append (shield ed : K) : ∀ (r r' : List (K × K)) (st : List K),
    pile shield ed st (r ++ r') = pile shield ed (pile shield ed st r) r'
  | [], _, _ => rfl
  | p :: r, r', st => by rw [List.cons_append, pile, pile, pile_append shield ed r r']

theorem eat_take : ∀ (l : List K) (ed : K) (n : Nat), (eat ed l).take n = eat ed (l.take n)
  | [], _, _ => by simp [eat]
  | a :: l, ed, 0 => by simp [eat]
  | a :: l, ed, n + 1 => by
    rw [List.take_succ_cons, eat, eat]
    split
    · rfl
    · rw [List.take_succ_cons, eat_take l]

/-- The layers on top do not depend on those below. -/
theorem pile_top (shield ed : K) : ∀ (r : List (K × K)) (st : List K) (n : Nat),
    (pile shield ed st r).take (n + r.length) = pile shield ed (st.take n) r
  | [], st, n => rfl
  | p :: r, st, n => by
    have := pile_top shield ed r (if p.2 ≤ shield then eat ed (p.1 :: st) else p.1 :: st) (n + 1)
    rw [show n + (p :: r).length = n + 1 + r.length by rw [List.length_cons]; omega]
    rw [pile, pile, this]
    congr 1
    split
    · rw [eat_take, List.take_succ_cons]
    · rw [List.take_succ_cons]

theorem pile_length (shield ed : K) : ∀ (r : List (K × K)) (st : List K),
    (pile shield ed st r).length = st.length + r.length
  | [], _ => rfl
  | p :: r, st => by
    rw [pile, pile_length shield ed r]
    split
    · rw [eat_length, List.length_cons, List.length_cons]; omega
    · rw [List.length_cons, List.length_cons]; omega

/-- The layers since timestep `k` are the pile of what came since. -/
theorem pile_since (shield ed : K) (r : List (K × K)) (k : Nat) :
    ((pile shield ed [] r).reverse).drop k = (pile shield ed [] (r.drop k)).reverse := by
  rw [List.drop_reverse, pile_length, List.length_nil, Nat.zero_add]
  have h1 := pile_append shield ed (r.take k) (r.drop k) []
  rw [List.take_append_drop] at h1
  have h2 := pile_top shield ed (r.drop k) (pile shield ed [] (r.take k)) 0
  rw [Nat.zero_add, List.take_zero, List.length_drop] at h2
  rw [h1, h2]

/-- The ice in a pile that starts with `s`: everything and the balance, or the best balance of a later period. -/
theorem pileSum_record (shield ed : K) : ∀ (r : List (K × K)) (s : K), 0 ≤ s → (∀ p ∈ r, 0 ≤ p.1) →
    IsGreatest ({s + balance shield ed r} ∪ balancesFrom shield ed r 0) (pileSum shield ed s r)
  | [], s, hs, _ => by
    rw [pileSum, balance_nil, add_zero]
    refine ⟨Or.inl rfl, ?_⟩
    rintro x (rfl | ⟨j, -, -, rfl⟩)
    · exact le_rfl
    · rw [List.drop_nil, balance_nil]; exact hs
  | p :: r, s, hs, hr => by
    have hp := hr p List.mem_cons_self
    have hr' : ∀ q ∈ r, 0 ≤ q.1 := fun q hq => hr q (List.mem_cons_of_mem _ hq)
    obtain ⟨s', hs'⟩ : ∃ t, t = (if p.2 ≤ shield then max 0 (s + p.1 - ed) else s + p.1) := ⟨_, rfl⟩
    have h0 : 0 ≤ s' := by
      rw [hs']
      split
      · exact le_max_left _ _
      · linarith
    have hle : s + keeps shield ed p ≤ s' := by
      rw [hs', keeps]
      split
      · refine le_trans (le_of_eq ?_) (le_max_right _ _); ring
      · exact le_rfl
    have hcase : s' = 0 ∨ s' = s + keeps shield ed p := by
      rw [hs', keeps]
      split
      · rcases max_choice 0 (s + p.1 - ed) with h | h
        · exact Or.inl h
        · right; rw [h]; ring
      · exact Or.inr rfl
    obtain ⟨i1, i2⟩ := pileSum_record shield ed r s' h0 hr'
    have e : pileSum shield ed s (p :: r) = pileSum shield ed s' r := by rw [pileSum, ← hs']
    rw [e]
    constructor
    · rcases i1 with i1 | ⟨j, hj1, hj2, hj3⟩
      · rw [Set.mem_singleton_iff] at i1
        rcases hcase with h | h
        · exact Or.inr ⟨1, by omega, by simp, by rw [i1, h, zero_add]; rfl⟩
        · left; rw [Set.mem_singleton_iff, i1, h, balance_cons]; ring
      · exact Or.inr ⟨j + 1, by omega, by simpa using hj2, by rw [hj3]; rfl⟩
    · have top : s + balance shield ed (p :: r) ≤ pileSum shield ed s' r := by
        refine le_trans ?_ (i2 (Or.inl rfl))
        rw [balance_cons]; linarith
      rintro x (rfl | ⟨j, -, hj, rfl⟩)
      · exact top
      · cases j with
        | zero => rw [List.drop_zero]; linarith
        | succ j => exact i2 (Or.inr ⟨j, by omega, by simpa using hj, rfl⟩)

/-- The ice in all layers since timestep `k` is the best balance of a period that begins then or later. -/
theorem pile_record (shield ed : K) (hed : 0 ≤ ed) (r : List (K × K)) (hr : ∀ p ∈ r, 0 ≤ p.1) (k : Nat)
    (hk : k ≤ r.length) :
    IsGreatest (balancesFrom shield ed r k) (((pile shield ed [] r).reverse).drop k).sum := by
  have hr' : ∀ p ∈ r.drop k, 0 ≤ p.1 := fun p hp => hr p (List.mem_of_mem_drop hp)
  rw [pile_since, List.sum_reverse, pile_sum shield ed hed _ _ (by simp) hr', List.sum_nil]
  have h := pileSum_record shield ed (r.drop k) 0 le_rfl hr'
  rw [zero_add] at h
  have e : ({balance shield ed (r.drop k)} ∪ balancesFrom shield ed (r.drop k) 0 : Set K) =
      balancesFrom shield ed r k := by
    ext x
    constructor
    · rintro (rfl | ⟨j, -, hj, rfl⟩)
      · exact ⟨k, le_rfl, hk, rfl⟩
      · rw [List.length_drop] at hj
        exact ⟨k + j, by omega, by omega, by rw [List.drop_drop]⟩
    · rintro ⟨j, h1, h2, rfl⟩
      refine Or.inr ⟨j - k, by omega, by rw [List.length_drop]; omega, ?_⟩
      rw [List.drop_drop, Nat.add_sub_cancel' h1]
  rwa [e] at h

/-- A layer has ice left exactly if the balance since its timestep exceeds that of every later period. -/
theorem pile_survives (shield ed : K) (hed : 0 ≤ ed) (r : List (K × K)) (hr : ∀ p ∈ r, 0 ≤ p.1) (k : Nat) (x : K)
    (hx : ((pile shield ed [] r).reverse)[k]? = some x) :
    (0 < x ↔ ∀ j, k < j → j ≤ r.length → balance shield ed (r.drop j) < balance shield ed (r.drop k)) ∧
    ∀ m, IsGreatest (balancesFrom shield ed r (k + 1)) m → x = max 0 (balance shield ed (r.drop k) - m) := by
  have hk : k < r.length := by
    have := (List.getElem?_eq_some_iff.1 hx).1
    rwa [List.length_reverse, pile_length, List.length_nil, Nat.zero_add] at this
  have h1 := pile_record shield ed hed r hr k hk.le
  have h2 := pile_record shield ed hed r hr (k + 1) hk
  obtain ⟨l, hl⟩ : ∃ l, l = (pile shield ed [] r).reverse := ⟨_, rfl⟩
  rw [← hl] at h1 h2 hx
  have hs : (l.drop k).sum = x + (l.drop (k + 1)).sum := by
    obtain ⟨hkl, hxe⟩ := List.getElem?_eq_some_iff.1 hx
    rw [List.drop_eq_getElem_cons hkl, List.sum_cons, hxe]
  have amount : ∀ m, IsGreatest (balancesFrom shield ed r (k + 1)) m →
      x = max 0 (balance shield ed (r.drop k) - m) := by
    intro m hm
    have e := hm.unique h2
    rw [e]
    have hge : 0 ≤ x := by
      obtain ⟨j, a, b, c⟩ := h2.1
      have := h1.2 ⟨j, by omega, b, c⟩
      linarith
    have hb := h1.2 ⟨k, le_rfl, hk.le, rfl⟩
    refine le_antisymm ?_ (max_le hge (by linarith))
    obtain ⟨j, a, b, c⟩ := h1.1
    by_cases hjk : j = k
    · subst hjk
      refine le_trans (le_of_eq ?_) (le_max_right _ _)
      linarith
    · have := h2.2 ⟨j, by omega, b, c⟩
      refine le_trans ?_ (le_max_left _ _)
      linarith
  refine ⟨?_, amount⟩
  rw [amount _ h2, lt_max_iff, lt_self_iff_false, false_or, sub_pos]
  constructor
  · intro h j hj hj'
    exact (h2.2 ⟨j, hj, hj', rfl⟩).trans_lt h
  · intro h
    obtain ⟨j, a, b, c⟩ := h2.1
    rw [c]
    exact h j a b

/-- **C162** In a column under the erosion of Cannon et al. alone: the ice in all layers since a timestep is the best
balance of a period that begins then or later and lasts to the end; a layer has ice left exactly if the balance since
its timestep exceeds that of every later period, and then the difference to the best of these. -/
theorem C162_column (shield ed : K) (hed : 0 ≤ ed) (ej ovs ys : List K) (ho : ∀ o ∈ ovs, o = ed)
    (h0 : ∀ y ∈ ys, 0 ≤ y) (hl : ys.length = ovs.length) (hej : ej.length = ovs.length) :
    ∃ r, overturnOnly (fun x => x) shield false ej 0 ovs ys = .ok r ∧
      (∀ k ≤ ys.length, IsGreatest (balancesFrom shield ed (ys.zip ej) k) (r.drop k).sum) ∧
      ∀ k x, r[k]? = some x →
        (0 < x ↔ ∀ j, k < j → j ≤ ys.length →
          balance shield ed ((ys.zip ej).drop j) < balance shield ed ((ys.zip ej).drop k)) ∧
        ∀ m, IsGreatest (balancesFrom shield ed (ys.zip ej) (k + 1)) m →
          x = max 0 (balance shield ed ((ys.zip ej).drop k) - m) := by
  obtain ⟨r, h⟩ := overturnOnly_total (fun x => x) shield ej ovs 0 ys (by omega)
  have e := C110_column shield ed hed ej ovs 0 ys r ho h0 (by omega) (by omega) h
  simp only [List.take_zero, List.drop_zero, List.reverse_nil] at e
  have hz : (ys.zip ej).length = ys.length := by rw [List.length_zip]; omega
  have hn : ∀ p ∈ ys.zip ej, 0 ≤ p.1 := fun p hp => h0 _ (List.of_mem_zip hp).1
  refine ⟨r, h, fun k hk => ?_, fun k x hx => ?_⟩
  · rw [e]
    exact pile_record shield ed hed _ hn k (by omega)
  · rw [e] at hx
    obtain ⟨a, b⟩ := pile_survives shield ed hed _ hn k x hx
    rw [hz] at a
    exact ⟨a, b⟩

/-- C162 in numbers: the balances since the timesteps are 1.1, 1.2, 0.2, 0.2 and 0 m; only the second and fourth layer have
ice, 1 and 0.2 m. -/
example : overturnOnly (fun x => x) (2 / 5) false [0, 0, 1, 0] 0 [1, 1, 1, 1] ([9 / 10, 2, 0, 12 / 10] : List ℚ) =
      .ok [0, 1, 0, 2 / 10] ∧
    (List.range 5).map (fun k => balance (2 / 5 : ℚ) 1 ((([9 / 10, 2, 0, 12 / 10] : List ℚ).zip [0, 0, 1, 0]).drop k)) =
      [11 / 10, 12 / 10, 2 / 10, 2 / 10, 0] := by decide +kernel

end

variable {σ : Type}

/-- **C162** A run with the erosion of Cannon et al. and no ballistic sedimentation: in every cold trap, what is left
of the ice since each timestep is the best balance of a period that begins then or later and lasts to the end, so that
layers with ice are those since which the balance exceeds that of every later period. -/
theorem C162_run (g : Gen σ) (hg : LawfulGen g) (c : RunCfg) (d : RunData) (hc : PhysicalCfg c)
    (hd : PhysicalData c d) (hnd : c.coldtrap_names.Nodup)
    (hcost : c.impact_gardening_costello = false) (hbs : c.ballistic_sed = false) (ed : ℝ) (hed : 0 ≤ ed)
    (hrate : c.ice_erosion_rate * (c.timestep / 1e7) = ed) (time : List ℝ) (htne : time ≠ [])
    (htime : getTimeArray c.timestart c.timeend c.timestep = .ok time) (out : CsvOut)
    (hrun : runMain g c d = .ok out) (j : Nat) (name : String) (hj : c.coldtrap_names[j]? = some name) :
    ∃ (df : CraterTable) (s s' : σ) (delivered : List (List ℝ)) (ys ice ej : List ℝ),
      craterBasinList g c d (g.init c.seed) = .ok (df, s) ∧
      iceCols g c d df time s = .ok (delivered, s') ∧ ys.length = time.length ∧ ej.length = time.length ∧
      (∀ (k : Nat) row, delivered[k]? = some row → ys[k]? = row[j]? ∧ row[j]?.isSome = true) ∧
      out.ice.get name = .ok ice ∧ out.ej.get name = .ok ej ∧ ice.length = time.length ∧
      (∀ k ≤ time.length, IsGreatest (balancesFrom 0.4 ed (ys.zip ej) k) (ice.drop k).sum) ∧
      ∀ k x, ice[k]? = some x →
        (0 < x ↔ ∀ j, k < j → j ≤ time.length →
          balance 0.4 ed ((ys.zip ej).drop j) < balance 0.4 ed ((ys.zip ej).drop k)) ∧
        ∀ m, IsGreatest (balancesFrom 0.4 ed (ys.zip ej) (k + 1)) m →
          x = max 0 (balance 0.4 ed ((ys.zip ej).drop k) - m) := by
  obtain ⟨df, s, time', del, s', a1, a2, a3, a4, a5⟩ := C110_run g hg c d hc hd hnd
    hcost hbs (by rw [hrate]; exact hed) out hrun
  rw [htime] at a2
  injection a2 with a2
  subst a2
  obtain ⟨ys, ice, ej, y1, y2, y3, y4, y5, y6, -, -⟩ := a5 j name hj
  have h0 : ∀ y ∈ ys, 0 ≤ y := by
    have hrad := craterBasinList_rad g hd _ _ _ a1
    obtain ⟨rows, v, w1, -, w3⟩ := iceCols_ok g hg hc hd df hrad time htne s
    rw [a3] at w1
    injection w1 with w1
    injection w1 with w1 w2
    intro y hy
    obtain ⟨k, hk⟩ := List.mem_iff_getElem?.1 hy
    have hil : k < del.length := by rw [a4, ← y1]; exact (List.getElem?_eq_some_iff.1 hk).1
    have g1 := (y2 k _ (List.getElem?_eq_getElem hil)).1
    rw [hk] at g1
    exact (w3 _ (by rw [← w1]; exact List.getElem_mem hil)).2 _ (List.mem_of_getElem? g1.symm)
  rw [hrate] at y6
  have hz : (ys.zip ej).length = time.length := by rw [List.length_zip]; omega
  have hn : ∀ p ∈ ys.zip ej, 0 ≤ p.1 := fun p hp => h0 _ (List.of_mem_zip hp).1
  refine ⟨df, s, s', del, ys, ice, ej, a1, a3, y1, y5, y2, y3, y4, ?_, fun k hk => ?_, fun k x hx => ?_⟩
  · rw [y6, List.length_reverse, pile_length, hz, List.length_nil, Nat.zero_add]
  · rw [y6]
    exact pile_record 0.4 ed hed _ hn k (by omega)
  · rw [y6] at hx
    obtain ⟨a, b⟩ := pile_survives 0.4 ed hed _ hn k x hx
    rw [hz] at a
    exact ⟨a, b⟩

/-- C162 for every cold trap of every run that reproduces Cannon et al. (2020) with the shipped files: it is without
ice exactly if no period up to the present brought more than 0.1 m for each of its timesteps that was not shielded. -/
theorem C162_cannon (nk : List (ℝ × ℝ)) (sortAges : CraterTable → CraterTable)
    (sortNk : List (ℝ × ℝ) → List (ℝ × ℝ)) (setOrder : List (List Char) → List (List Char)) (g : Gen σ)
    (hg : LawfulGen g) (hs : Spec.SortDesc sortAges) (seed : Int) :
    ∃ out, runMain g (RunCfg.cannon seed) (shippedData nk sortAges sortNk setOrder) = .ok out ∧
      ∀ (j : Nat) name, (RunCfg.cannon seed).coldtrap_names[j]? = some name →
        ∃ (df : CraterTable) (time : List ℝ) (s s' : σ) (delivered : List (List ℝ)) (ys ice ej : List ℝ),
        craterBasinList g (RunCfg.cannon seed) (shippedData nk sortAges sortNk setOrder) (g.init seed) =
          .ok (df, s) ∧
        getTimeArray 4.25e9 0 10e6 = .ok time ∧
        iceCols g (RunCfg.cannon seed) (shippedData nk sortAges sortNk setOrder) df time s =
          .ok (delivered, s') ∧
        (∀ (k : Nat) row, delivered[k]? = some row → ys[k]? = row[j]? ∧ row[j]?.isSome = true) ∧
        out.ice.get name = .ok ice ∧ out.ej.get name = .ok ej ∧ ys.length = 425 ∧ ej.length = 425 ∧
        (ice.sum = 0 ↔ ∀ k ≤ 425, balance 0.4 0.1 ((ys.zip ej).drop k) ≤ 0) := by
  obtain ⟨-, out, hrun⟩ := C74_default_returns nk sortAges sortNk setOrder g hg hs seed
  refine ⟨out, hrun, fun j name hj => ?_⟩
  obtain ⟨time, ht, htl⟩ : ∃ time : List ℝ, getTimeArray (4.25e9 : ℝ) 0 10e6 = .ok time ∧ time.length = 425 :=
    ⟨_, C19_uniform_partial (4.25e9 : ℝ) 10e6 425 (by norm_num) (by norm_num) (by norm_num), by simp [uniformGrid]⟩
  obtain ⟨df, s, s', del, ys, ice, ej, h1, h2, h3, h4, h5, h6, h7, -, h8, -⟩ := C162_run g hg _ _
    (cannon_physical seed) (cannon_data _ _ _ _ hs seed) (cannon_runnable nk sortAges sortNk setOrder seed).nodup
    rfl rfl 0.1 (by norm_num) (cannon_erosion seed) time (by intro h; simp [h] at htl) ht out hrun j name hj
  refine ⟨df, time, s, s', del, ys, ice, ej, h1, ht, h2, h5, h6, h7, by omega, by omega, ?_⟩
  have hz : (ys.zip ej).length = 425 := by rw [List.length_zip]; omega
  have hb := h8 0 (by omega)
  rw [List.drop_zero] at hb
  constructor
  · intro h k hk
    rw [h] at hb
    exact hb.2 ⟨k, by omega, by omega, rfl⟩
  · intro h
    obtain ⟨k, -, hk, e⟩ := hb.1
    refine le_antisymm (by rw [e]; exact h k (by omega)) (hb.2 ⟨425, by omega, by omega, ?_⟩)
    rw [List.drop_of_length_le (by omega), balance_nil]

end MoonPIES
