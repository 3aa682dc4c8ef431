import Mathlib.Algebra.Order.Floor.Ring
import Mathlib.Data.Rat.Floor
import Mathlib.Algebra.Order.Ring.Rat
import Verif.Lemmas.MeltLoop

/-!
# C63-C66: melting by warm ejecta (`thermal_eq.py`)
-/

namespace MoonPIES

set_option linter.unusedSectionVars false

variable {K : Type} [Field K] [LinearOrder K] [IsStrictOrderedRing K]

/-! ## C64: the maximum principle -/

/-- Spec: thermal conductivity of regolith [W/m/K]. -/
def Spec.conductivity (t : K) : K := 0.0034 * (1 + 2.7 * (t / 350) ^ 3)

/-- Spec: specific heat capacity of regolith [J/kg/K]. -/
def Spec.heatCapacity (t : K) : K :=
  -3.6125 + 2.7431 * t + 0.0023616 * t ^ 2 - 0.00001234 * t ^ 3 + 0.0000000089093 * t ^ 4

/-- A conduction step a reader would write down: element `i` of a ring of `n` elements exchanges
heat with its two neighbours, with `k dt / (ρ cp dx²)` evaluated at its own temperature
(`dt = 1 ms`, `dx = 10 µm`, `ρ = 1800 kg/m³`). -/
def Spec.RingStep (T T' : List K) : Prop :=
  T'.length = T.length ∧ ∀ i, i < T.length → ∃ a t b,
    T[(i + T.length - 1) % T.length]? = some a ∧ T[i]? = some t ∧
    T[(i + 1) % T.length]? = some b ∧ Spec.heatCapacity t ≠ 0 ∧
    T'[i]? = some (t + Spec.conductivity t * 0.001 / (1800 * Spec.heatCapacity t * 0.00001 ^ 2) *
      (a - 2 * t + b))

theorem conductivity_eq (t : K) : thermalConductivity t = Spec.conductivity t := by
  unfold thermalConductivity Spec.conductivity; norm_num

theorem sphc_eq (t : K) : sphc t = Spec.heatCapacity t := by
  unfold sphc Spec.heatCapacity; norm_num

/-- **C64** (what a step computes) Whenever a step succeeds there are at least two elements and the
result is the explicit conduction step on a ring, first and last elements included. -/
theorem C64_ring (T T' : List K) (h : heat1d T = .ok T') : 2 ≤ T.length ∧ Spec.RingStep T T' := by
  obtain ⟨h2, hl, hi⟩ := heat1d_ring T T' h
  refine ⟨h2, hl, fun i hiT => ?_⟩
  obtain ⟨c, a, t, b, ha, ht, hb, hc, hr⟩ := hi i hiT
  unfold heatCoeff thermalDiffusivity at hc
  rw [conductivity_eq, sphc_eq] at hc
  by_cases hd : 1800 * Spec.heatCapacity t = 0
  · rw [if_pos hd] at hc; cases hc
  · rw [if_neg hd] at hc
    simp only [Except.map, Except.ok.injEq] at hc
    have hd' : Spec.heatCapacity t ≠ 0 := fun e => hd (by rw [e, mul_zero])
    refine ⟨a, t, b, ha, ht, hb, hd', ?_⟩
    rw [hr, ← hc]
    congr 1
    unfold heatUpdate
    have e : (Spec.conductivity t / (1800 * Spec.heatCapacity t) * (1 / 1000)) / (1 / 100000) ^ 2 =
        Spec.conductivity t * 0.001 / (1800 * Spec.heatCapacity t * 0.00001 ^ 2) := by
      norm_num
      field_simp
      try norm_num
    rw [e]; ring

/-- **C64** One step from temperatures inside `[lo, hi] ⊆ [45, 510]` succeeds and stays inside
`[lo, hi]`. -/
theorem C64_one_step (T : List K) (lo hi : K) (hlen : 2 ≤ T.length) (hlo : 45 ≤ lo)
    (hhi : hi ≤ 510) (hT : ∀ t ∈ T, lo ≤ t ∧ t ≤ hi) :
    ∃ T', heat1d T = .ok T' ∧ T'.length = T.length ∧ ∀ t ∈ T', lo ≤ t ∧ t ≤ hi := by
  obtain ⟨T', hT'⟩ := heat1d_ok T hlen (fun t ht => by
    obtain ⟨c, hc, _⟩ := heatCoeff_range t (by linarith [(hT t ht).1]) (by linarith [(hT t ht).2])
    exact ⟨c, hc⟩)
  obtain ⟨_, hl, hi'⟩ := heat1d_ring T T' hT'
  refine ⟨T', hT', hl, fun t' ht' => ?_⟩
  obtain ⟨i, hit⟩ := List.mem_iff_getElem?.mp ht'
  have hiT : i < T.length := by
    rw [← hl]; exact (List.getElem?_eq_some_iff.mp hit).1
  obtain ⟨c, a, t, b, ha, ht, hb, hc, hr⟩ := hi' i hiT
  have hta := hT a (List.mem_of_getElem? ha)
  have htt := hT t (List.mem_of_getElem? ht)
  have htb := hT b (List.mem_of_getElem? hb)
  obtain ⟨c', hc', h0, h1⟩ := heatCoeff_range t (by linarith [htt.1]) (by linarith [htt.2])
  rw [hc] at hc'
  cases hc'
  rw [hit] at hr
  cases hr
  exact heatUpdate_mem c a t b lo hi h0.le h1 hta htt htb

/-- `n` conduction steps. -/
def heatSteps : Nat → List K → Except PyErr (List K)
  | 0, T => .ok T
  | n + 1, T => (heat1d T).bind (heatSteps n)

/-- **C64** For any number of steps: starting within `[lo, hi] ⊆ [45, 510]`, every step succeeds and
every temperature stays between `lo` and `hi`; with `lo` and `hi` the extremes of the array this is
the maximum principle, and between steps `m ≤ n` it bounds the later array by the earlier one. -/
theorem C64_maximum_principle (n : Nat) (T : List K) (lo hi : K) (hlen : 2 ≤ T.length)
    (hlo : 45 ≤ lo) (hhi : hi ≤ 510) (hT : ∀ t ∈ T, lo ≤ t ∧ t ≤ hi) :
    ∃ T', heatSteps n T = .ok T' ∧ T'.length = T.length ∧ ∀ t ∈ T', lo ≤ t ∧ t ≤ hi := by
  induction n generalizing T with
  | zero => exact ⟨T, rfl, rfl, hT⟩
  | succ n ih =>
    obtain ⟨T₁, h1, hl1, hT1⟩ := C64_one_step T lo hi hlen hlo hhi hT
    obtain ⟨T₂, h2, hl2, hT2⟩ := ih T₁ (by omega) hT1
    refine ⟨T₂, ?_, by omega, hT2⟩
    rw [heatSteps, h1]; exact h2

/-- An array in equilibrium is unchanged. -/
theorem C64_equilibrium (T : List K) (t : K) (hlen : 2 ≤ T.length) (h1 : 45 ≤ t) (h2 : t ≤ 510)
    (hT : ∀ x ∈ T, x = t) : heat1d T = .ok T := by
  obtain ⟨T', h, hl, hT'⟩ := C64_one_step T t t hlen h1 h2 (fun x hx => by rw [hT x hx]; simp)
  rw [h]; congr 1
  have e1 : T = List.replicate T.length t := List.eq_replicate_iff.mpr ⟨rfl, hT⟩
  have e2 : T' = List.replicate T.length t :=
    List.eq_replicate_iff.mpr ⟨hl, fun x hx => le_antisymm (hT' x hx).2 (hT' x hx).1⟩
  rw [e2, ← e1]

/-- A hot element between cold ones: its neighbours warm and it cools. -/
def exTemps : List ℚ := [45, 400, 45, 45]

example : ∃ T', heatSteps 7 exTemps = .ok T' ∧ T'.length = 4 ∧ ∀ t ∈ T', (45 : ℚ) ≤ t ∧ t ≤ 400 :=
  C64_maximum_principle 7 exTemps 45 400 (by decide) (by norm_num) (by norm_num)
    (by decide +kernel)

example : (match heat1d exTemps with
    | .ok [a, b, c, d] => decide (45 < a ∧ b < 400 ∧ 45 < c ∧ d = 45)
    | _ => false) = true := by
  decide +kernel

/-! ## C63, C66: the melt fraction -/

variable [FloorRing K]

/-- `rng.choice(np.arange(n), size=k, replace=False)`: `k` different positions below `n`. -/
def GoodDraw (n : Nat) (draw : Nat → List Nat) : Prop :=
  ∀ k, k ≤ n → (draw k).Nodup ∧ (draw k).length = k ∧ ∀ i ∈ draw k, i < n

theorem ejectaCount_range (n : Nat) (mr : K) (hmr : 0 ≤ mr) :
    ∃ k : Nat, ejectaCount n mr = .ok (k : Int) ∧ k ≤ n ∧ (k : K) ≤ n * (1 / (1 + mr)) ∧
      (n : K) * (1 / (1 + mr)) < k + 1 := by
  have h1 : (0 : K) < 1 + mr := by linarith
  have h0 : (0 : K) ≤ (n : K) * (1 / (1 + mr)) := by positivity
  have hle : (n : K) * (1 / (1 + mr)) ≤ n := by
    have h : 1 / (1 + mr) ≤ 1 := by rw [div_le_one h1]; linarith
    have hn : (0 : K) ≤ n := by positivity
    nlinarith
  have hf : 0 ≤ ⌊(n : K) * (1 / (1 + mr))⌋ := Int.floor_nonneg.mpr h0
  obtain ⟨k, hk⟩ := Int.eq_ofNat_of_zero_le hf
  have hfl := Int.floor_le ((n : K) * (1 / (1 + mr)))
  have hlt := Int.lt_floor_add_one ((n : K) * (1 / (1 + mr)))
  rw [hk] at hfl hlt
  rw [Int.cast_natCast] at hfl hlt
  refine ⟨k, ?_, ?_, hfl, hlt⟩
  · unfold ejectaCount pyInt
    rw [if_neg (ne_of_gt h1), if_pos h0, hk]
  · have : (k : K) ≤ n := le_trans hfl hle
    exact_mod_cast this

/-- Initial temperatures for ejecta at the positions `inds`. -/
def initTemps (a : MeltArgs K) (inds : List Nat) : List K :=
  (List.range a.n).map (fun i => if i ∈ inds then a.ejectaT else a.targetT)

/-- `melted` before the loop. -/
def initMelted (n : Nat) (inds : List Nat) : List Bool :=
  (List.range n).map (fun i => decide (i ∈ inds))

omit [IsStrictOrderedRing K] in
theorem meltFracTeq_full (heat : List K → Except PyErr (List K)) (a : MeltArgs K) (mr : K)
    (draw : Nat → List Nat) (h : ejectaCount a.n mr = .ok (a.n : Int)) :
    meltFracTeq heat a mr draw = .ok (if a.meltT ≤ a.ejectaT then 1 else 0, 0) := by
  unfold meltFracTeq
  simp only [bind, Except.bind, h, if_true]

omit [IsStrictOrderedRing K] in
theorem meltFracTeq_loop (heat : List K → Except PyErr (List K)) (a : MeltArgs K) (mr : K)
    (draw : Nat → List Nat) (k : Nat) (h : ejectaCount a.n mr = .ok (k : Int)) (hk : k < a.n) :
    meltFracTeq heat a mr draw =
      (meltLoop heat a.meltT a.eqThresh a.maxIter (initTemps a (draw k))
        (initMelted a.n (draw k))).map
      (fun r => (((r.1.countP id : K) - (k : K)) / ((a.n : K) - (k : K)), r.2)) := by
  unfold meltFracTeq
  simp only [bind, Except.bind, h]
  rw [if_neg (by omega), if_neg (by omega)]
  simp only [Int.toNat_natCast]
  rw [← initTemps, ← initMelted]
  cases meltLoop heat a.meltT a.eqThresh a.maxIter (initTemps a (draw k))
    (initMelted a.n (draw k)) <;> rfl

/-- Melted cells seen as a set of positions: how many cells of the array are set. -/
theorem countP_range (m : List Bool) (n : Nat) (hm : m.length = n) (p : Nat → Bool)
    (h : ∀ i, i < n → m[i]? = some (p i)) : m.countP id = (List.range n).countP p := by
  have e : m = (List.range n).map p := by
    apply List.ext_getElem?
    intro i
    by_cases hi : i < n
    · rw [h i hi]; simp [hi]
    · rw [List.getElem?_eq_none (by omega), List.getElem?_eq_none (by simp; omega)]
  rw [e, List.countP_map]
  rfl

/-- Cells that are drawn, counted over all positions. -/
theorem countP_draw (n : Nat) (inds : List Nat) (hnd : inds.Nodup) (hlt : ∀ i ∈ inds, i < n) :
    (List.range n).countP (fun i => decide (i ∈ inds)) = inds.length := by
  rw [List.countP_eq_length_filter]
  apply List.Perm.length_eq
  apply (List.perm_ext_iff_of_nodup (List.nodup_range.filter _) hnd).mpr
  intro i
  simp only [List.mem_filter, List.mem_range, decide_eq_true_eq]
  exact ⟨fun h => h.2, fun h => ⟨hlt i h, h⟩⟩

theorem countP_or (n : Nat) (p q : Nat → Bool) :
    (List.range n).countP (fun i => p i || q i) =
      (List.range n).countP p + (List.range n).countP (fun i => !p i && q i) := by
  induction n with
  | zero => rfl
  | succ n ih =>
    rw [List.range_succ, List.countP_append, List.countP_append, List.countP_append, ih]
    simp only [List.countP_singleton]
    cases p n <;> cases q n <;> simp <;> omega

/-- Which cells have melted after `j` steps of a trace. -/
theorem mel_iff (mt : K) (temps : Nat → List K) (mel : Nat → List Bool) (n s : Nat)
    (hlen : ∀ k, k ≤ s → (temps k).length = n ∧ (mel k).length = n)
    (hstep : ∀ k, k < s → mel (k + 1) = markMelted mt (temps (k + 1)) (mel k)) :
    ∀ j, j ≤ s → ∀ (i : Nat), i < n → ((mel j)[i]? = some true ↔
      (mel 0)[i]? = some true ∨ ∃ k, 1 ≤ k ∧ k ≤ j ∧ ∃ t, (temps k)[i]? = some t ∧ mt ≤ t)
  | 0, _, i, _ => by
    constructor
    · exact Or.inl
    · rintro (h | ⟨k, h1, h2, _⟩)
      · exact h
      · omega
  | j + 1, hj, i, hi => by
    have ih := mel_iff mt temps mel n s hlen hstep j (by omega) i hi
    have hm : i < (mel j).length := by rw [(hlen j (by omega)).2]; exact hi
    have ht : i < (temps (j + 1)).length := by rw [(hlen (j + 1) hj).1]; exact hi
    rw [hstep j (by omega), markMelted_getElem mt _ _ i _ _ (List.getElem?_eq_getElem ht)
      (List.getElem?_eq_getElem hm)]
    rw [List.getElem?_eq_getElem hm] at ih
    simp only [Option.some.injEq] at ih
    simp only [Option.some.injEq, Bool.or_eq_true, decide_eq_true_eq, ih]
    constructor
    · rintro ((h | ⟨k, h1, h2, h3⟩) | h)
      · exact Or.inl h
      · exact Or.inr ⟨k, h1, by omega, h3⟩
      · exact Or.inr ⟨j + 1, by omega, le_rfl, _, List.getElem?_eq_getElem ht, h⟩
    · rintro (h | ⟨k, h1, h2, t, h3, h4⟩)
      · exact Or.inl (Or.inl h)
      · by_cases hk : k = j + 1
        · subst hk
          rw [List.getElem?_eq_getElem ht] at h3
          cases h3
          exact Or.inr h4
        · exact Or.inl (Or.inr ⟨k, h1, by omega, t, h3, h4⟩)

/-- The melted fraction a reader would compute from the history of temperatures: of the positions
not holding ejecta, the share that was at or above `meltT` after some step. -/
noncomputable def Spec.meltedShare (n : Nat) (inds : List Nat) (meltT : K) (temps : Nat → List K) (s : Nat) : K :=
  open Classical in
  ((List.range n).countP (fun i => decide (i ∉ inds ∧
      ∃ k, 1 ≤ k ∧ k ≤ s ∧ ∃ t, (temps k)[i]? = some t ∧ meltT ≤ t)) : K) /
    ((List.range n).countP (fun i => decide (i ∉ inds)) : K)

/-- The three reasons to stop before `max_iter` (docstring of `melt_frac_teq_1d`): every position
has been ejecta or at melting temperature, everything is below `meltT`, or neighbours differ by
less than `eqThresh`. -/
def Spec.Settled (a : MeltArgs K) (inds : List Nat) (temps : Nat → List K) (s : Nat) : Prop :=
  (∀ i, i < a.n → i ∈ inds ∨ ∃ k, 1 ≤ k ∧ k ≤ s ∧ ∃ t, (temps k)[i]? = some t ∧ a.meltT ≤ t) ∨
  (∀ t ∈ temps s, t < a.meltT) ∨
  (∀ (i : Nat) x y, (temps s)[i]? = some x → (temps s)[i + 1]? = some y → |y - x| < a.eqThresh)

omit [IsStrictOrderedRing K] [FloorRing K] in
theorem npDiff_all (e : K) : ∀ (T : List K), (npDiff T).all (fun d => decide (|d| < e)) = true ↔
    ∀ (i : Nat) x y, T[i]? = some x → T[i + 1]? = some y → |y - x| < e
  | [] => by simp [npDiff]
  | [a] => by
    simp only [npDiff, List.all_nil, true_iff]
    intro i x y _ h
    simp at h
  | a :: b :: T => by
    rw [npDiff, List.all_cons, Bool.and_eq_true, npDiff_all e (b :: T), decide_eq_true_eq]
    constructor
    · rintro ⟨h1, h2⟩ i x y hx hy
      cases i with
      | zero => simp at hx hy; subst hx; subst hy; exact h1
      | succ i => exact h2 i x y (by simpa using hx) (by simpa using hy)
    · intro h
      exact ⟨h 0 a b rfl rfl, fun i x y hx hy => h (i + 1) x y (by simpa using hx) (by simpa using hy)⟩

theorem initMelted_get (n : Nat) (inds : List Nat) (i : Nat) (hi : i < n) :
    (initMelted n inds)[i]? = some true ↔ i ∈ inds := by
  unfold initMelted; simp [hi]

/-- **C63** (what is computed, and when it stops) For every heat step that keeps the length of the
array, every placement and every mixing ratio that leaves target cells: there is a history of
temperatures, each obtained from the one before by one step, starting with ejecta at the drawn
positions and target elsewhere; it takes at most `max_iter` steps, never steps on from a settled
state, stops early only in a settled state, and the result is the share of target positions that
were ever at melting temperature after a step. -/
theorem C63_meaning (heat : List K → Except PyErr (List K))
    (hlen : ∀ T T', heat T = .ok T' → T'.length = T.length) (a : MeltArgs K) (mr : K)
    (draw : Nat → List Nat) (hd : GoodDraw a.n draw) (k : Nat)
    (hk : ejectaCount a.n mr = .ok (k : Int)) (hkn : k < a.n) (f : K) (s : Nat)
    (h : meltFracTeq heat a mr draw = .ok (f, s)) :
    ∃ temps : Nat → List K,
      (temps 0).length = a.n ∧
      (∀ i, i < a.n → (temps 0)[i]? = some (if i ∈ draw k then a.ejectaT else a.targetT)) ∧
      (∀ j, j < s → heat (temps j) = .ok (temps (j + 1)) ∧ ¬ Spec.Settled a (draw k) temps j) ∧
      s ≤ a.maxIter ∧ (s < a.maxIter → Spec.Settled a (draw k) temps s) ∧
      f = Spec.meltedShare a.n (draw k) a.meltT temps s := by
  rw [meltFracTeq_loop heat a mr draw k hk hkn] at h
  cases hL : meltLoop heat a.meltT a.eqThresh a.maxIter (initTemps a (draw k))
    (initMelted a.n (draw k)) with
  | error e => rw [hL] at h; cases h
  | ok r =>
    rw [hL] at h
    simp only [Except.map, Except.ok.injEq, Prod.mk.injEq] at h
    obtain ⟨hf, hs⟩ := h
    have hml : (initMelted a.n (draw k)).length = a.n := by simp [initMelted]
    obtain ⟨temps, mel, h0, h1, h2, h3, h4, h5, h6⟩ := meltLoop_trace heat a.meltT a.eqThresh hlen
      a.maxIter _ _ (by simp [initTemps, initMelted]) r hL
    rw [hml] at h4
    have hmel := mel_iff a.meltT temps mel a.n r.2 h4 (fun j hj => (h5 j hj).2.2)
    have hmel' : ∀ j, j ≤ r.2 → ∀ i, i < a.n → ((mel j)[i]? = some true ↔ (i ∈ draw k ∨
        ∃ k, 1 ≤ k ∧ k ≤ j ∧ ∃ t, (temps k)[i]? = some t ∧ a.meltT ≤ t)) := by
      intro j hj i hi
      rw [hmel j hj i hi, h1, initMelted_get a.n (draw k) i hi]
    have hset : ∀ j, j ≤ r.2 → (keepHeating a.meltT a.eqThresh (temps j) (mel j) = false ↔
        Spec.Settled a (draw k) temps j) := by
      intro j hj
      have hall : (mel j).all id = true ↔ ∀ i, i < a.n → (mel j)[i]? = some true := by
        rw [List.all_eq_true]
        constructor
        · intro hx i hi
          have hi' : i < (mel j).length := by rw [(h4 j hj).2]; exact hi
          rw [List.getElem?_eq_getElem hi', Option.some.injEq]
          exact hx _ (List.getElem_mem hi')
        · intro hx b hb
          obtain ⟨i, hib⟩ := List.mem_iff_getElem?.mp hb
          have hi : i < a.n := by
            rw [← (h4 j hj).2]; exact (List.getElem?_eq_some_iff.mp hib).1
          have := hx i hi
          rw [hib] at this
          simpa using this
      unfold keepHeating Spec.Settled
      rw [Bool.and_eq_false_iff, Bool.and_eq_false_iff, Bool.not_eq_false', Bool.not_eq_false',
        Bool.not_eq_false', npDiff_all, hall, List.all_eq_true, or_assoc]
      refine or_congr ?_ (or_congr ?_ Iff.rfl)
      · exact forall_congr' fun i => forall_congr' fun hi => hmel' j hj i hi
      · simp
    refine ⟨temps, ?_, ?_, ?_, ?_, ?_, ?_⟩
    · rw [h0]; simp [initTemps]
    · intro i hi; rw [h0]; simp [initTemps, hi]
    · intro j hj
      rw [← hs] at hj
      refine ⟨(h5 j hj).2.1, fun hse => ?_⟩
      have := (hset j hj.le).mpr hse
      rw [(h5 j hj).1] at this
      cases this
    · rw [← hs]; exact h3
    · intro hlt
      rw [← hs] at hlt ⊢
      exact (hset r.2 le_rfl).mp (h6 hlt)
    · classical
      rw [← hf, ← hs]
      unfold Spec.meltedShare
      obtain ⟨hnd, hdl, hdi⟩ := hd k hkn.le
      have hc := countP_range r.1 a.n (by rw [← h2]; exact (h4 r.2 le_rfl).2)
        (fun i => decide (i ∈ draw k) || decide (∃ k, 1 ≤ k ∧ k ≤ r.2 ∧
          ∃ t, (temps k)[i]? = some t ∧ a.meltT ≤ t)) (by
          intro i hi
          rw [← h2]
          have hi' : i < (mel r.2).length := by rw [(h4 r.2 le_rfl).2]; exact hi
          have := hmel' r.2 le_rfl i hi
          rw [List.getElem?_eq_getElem hi', Option.some.injEq] at this ⊢
          rw [Bool.eq_iff_iff, this]
          simp)
      rw [hc, countP_or, countP_draw a.n (draw k) hnd hdi, hdl]
      have hn := countP_or a.n (fun i => decide (i ∈ draw k)) (fun _ => true)
      rw [countP_draw a.n (draw k) hnd hdi, hdl] at hn
      simp only [Bool.or_true, List.countP_true, List.length_range, Bool.and_true] at hn
      congr 1
      · push_cast
        rw [add_sub_cancel_left]
        congr 2
        funext i
        rw [Bool.eq_iff_iff]; simp
      · rw [eq_comm, eq_sub_iff_add_eq']
        have e : (fun i => decide (i ∉ draw k)) = (fun i => !decide (i ∈ draw k)) := by
          funext i; rw [Bool.eq_iff_iff]; simp
        rw [e]
        have := congrArg (Nat.cast (R := K)) hn
        push_cast at this
        exact this.symm

/-- **C63** (range and termination) For every heat step that keeps the length, every mixing ratio
`≥ 0` and every placement, a result is a fraction in `[0, 1]` reached in at most `max_iter` steps. -/
theorem C63_fraction (heat : List K → Except PyErr (List K))
    (hlen : ∀ T T', heat T = .ok T' → T'.length = T.length) (a : MeltArgs K) (mr : K)
    (hmr : 0 ≤ mr) (draw : Nat → List Nat) (hd : GoodDraw a.n draw) (f : K) (s : Nat)
    (h : meltFracTeq heat a mr draw = .ok (f, s)) : 0 ≤ f ∧ f ≤ 1 ∧ s ≤ a.maxIter := by
  obtain ⟨k, hk, hkn, _⟩ := ejectaCount_range a.n mr hmr
  rcases Nat.lt_or_ge k a.n with hlt | hge
  · obtain ⟨temps, _, _, _, hs, _, hf⟩ := C63_meaning heat hlen a mr draw hd k hk hlt f s h
    rw [hf]
    unfold Spec.meltedShare
    refine ⟨by positivity, ?_, hs⟩
    apply div_le_one_of_le₀ _ (by positivity)
    norm_cast
    apply List.countP_mono_left
    intro i _ hi
    simp only [decide_eq_true_eq] at hi ⊢
    exact hi.1
  · have : k = a.n := by omega
    subst this
    rw [meltFracTeq_full heat a mr draw hk] at h
    cases h
    split <;> simp

/-- **C63** The model as called by the code, in the temperature range of the melt table: for every
mixing ratio `≥ 0`, size, placement and step limit it returns a fraction in `[0, 1]` after at most
`max_iter` steps. -/
theorem C63_returns (a : MeltArgs K) (mr : K) (hmr : 0 ≤ mr) (draw : Nat → List Nat)
    (hd : GoodDraw a.n draw) (he : 45 ≤ a.ejectaT ∧ a.ejectaT ≤ 510)
    (ht : 45 ≤ a.targetT ∧ a.targetT ≤ 510) :
    ∃ f s, meltFracTeq heat1d a mr draw = .ok (f, s) ∧ 0 ≤ f ∧ f ≤ 1 ∧ s ≤ a.maxIter := by
  obtain ⟨k, hk, hkn, _⟩ := ejectaCount_range a.n mr hmr
  have hlen : ∀ T T' : List K, heat1d T = .ok T' → T'.length = T.length :=
    fun T T' h => (heat1d_ring T T' h).2.1
  obtain ⟨⟨f, s⟩, h⟩ : ∃ r, meltFracTeq heat1d a mr draw = .ok r := by
    rcases Nat.lt_or_ge k a.n with hlt | hge
    · rw [meltFracTeq_loop heat1d a mr draw k hk hlt]
      obtain ⟨r, hr⟩ := meltLoop_ok heat1d a.meltT a.eqThresh
        (fun T => ∀ t ∈ T, 45 ≤ t ∧ t ≤ 510) (by
          intro T m hT hkeep
          have h2 : 2 ≤ T.length := by
            rcases T with _ | ⟨x, _ | ⟨y, T⟩⟩
            · simp [keepHeating] at hkeep
            · simp [keepHeating, npDiff] at hkeep
            · simp
          obtain ⟨T', h, _, hT'⟩ := C64_one_step T 45 510 h2 le_rfl le_rfl hT
          exact ⟨T', h, hT'⟩) a.maxIter (initTemps a (draw k)) (initMelted a.n (draw k)) (by
          intro t ht'
          unfold initTemps at ht'
          obtain ⟨i, _, rfl⟩ := List.mem_map.mp ht'
          split
          · exact he
          · exact ht)
      rw [hr]
      exact ⟨_, rfl⟩
    · have : k = a.n := by omega
      subst this
      exact ⟨_, meltFracTeq_full heat1d a mr draw hk⟩
  exact ⟨f, s, h, C63_fraction heat1d hlen a mr hmr draw hd f s h⟩

/-- **C63** A cell once melted stays melted: running the loop longer only adds melted cells. -/
theorem C63_stays_melted (heat : List K → Except PyErr (List K)) (mt eq : K)
    (hlen : ∀ T T', heat T = .ok T' → T'.length = T.length) :
    ∀ (n₁ n₂ : Nat) (T : List K) (m : List Bool), T.length = m.length → n₁ ≤ n₂ →
    ∀ r₁ r₂, meltLoop heat mt eq n₁ T m = .ok r₁ → meltLoop heat mt eq n₂ T m = .ok r₂ →
    ∀ i : Nat, r₁.1[i]? = some true → r₂.1[i]? = some true := by
  have mono : ∀ (n : Nat) (T : List K) (m : List Bool), T.length = m.length → ∀ r,
      meltLoop heat mt eq n T m = .ok r → ∀ i : Nat, m[i]? = some true → r.1[i]? = some true := by
    intro n T m hm r hr i hi
    obtain ⟨temps, mel, _, h1, h2, _, h4, h5, _⟩ := meltLoop_trace heat mt eq hlen n T m hm r hr
    have := mel_iff mt temps mel m.length r.2 h4 (fun j hj => (h5 j hj).2.2) r.2 le_rfl i
      (List.getElem?_eq_some_iff.mp hi).1
    rw [h2, h1] at this
    exact this.mpr (Or.inl hi)
  intro n₁
  induction n₁ with
  | zero =>
    intro n₂ T m hm _ r₁ r₂ h1 h2 i hi
    cases h1
    exact mono n₂ T m hm r₂ h2 i hi
  | succ n₁ ih =>
    intro n₂ T m hm hle r₁ r₂ h1 h2 i hi
    obtain ⟨n₂, rfl⟩ : ∃ q, n₂ = q + 1 := ⟨n₂ - 1, by omega⟩
    cases hk : keepHeating mt eq T m with
    | false =>
      rw [meltLoop_succ_stop heat mt eq n₁ T m hk] at h1
      rw [meltLoop_succ_stop heat mt eq n₂ T m hk] at h2
      cases h1; cases h2; exact hi
    | true =>
      obtain ⟨T₁, m₁, i₁, e1, l1, rfl⟩ := meltLoop_succ_go heat mt eq n₁ T m hk r₁ h1
      obtain ⟨T₂, m₂, i₂, e2, l2, rfl⟩ := meltLoop_succ_go heat mt eq n₂ T m hk r₂ h2
      rw [e1] at e2
      cases e2
      exact ih n₂ T₁ _ (by unfold markMelted; simp [hlen T T₁ e1, hm]) (by omega) _ _ l1 l2 i hi

/-- The first `k` positions. -/
theorem goodDraw_range (n : Nat) : GoodDraw n List.range := by
  intro k hk
  exact ⟨List.nodup_range, by simp, fun i hi => by simp at hi; omega⟩

/-- Arguments of the examples: warm ejecta, four cells. -/
def exMelt : MeltArgs ℚ := ⟨400, 45, 110, 4, 1, 3⟩

example : ∃ f s, meltFracTeq heat1d exMelt 1 List.range = .ok (f, s) ∧ 0 ≤ f ∧ f ≤ 1 ∧ s ≤ 3 :=
  C63_returns exMelt 1 (by norm_num) List.range (goodDraw_range 4) (by decide +kernel)
    (by decide +kernel)

/-- Half ejecta at 400 K: both target cells are melted after two steps. -/
example : meltFracTeq heat1d exMelt 1 List.range = .ok (1, 2) := by decide +kernel

/-- Dilute ejecta at 400 K with four cells: two of three target cells melt. -/
example : ∃ s, meltFracTeq heat1d exMelt 3 List.range = .ok (2 / 3, s) := ⟨3, by decide +kernel⟩

/-- **C66** If ejecta and target are both colder than `meltT` nothing melts, without a step. -/
theorem C66_cold (heat : List K → Except PyErr (List K)) (a : MeltArgs K) (mr : K) (hmr : 0 ≤ mr)
    (draw : Nat → List Nat) (hd : GoodDraw a.n draw) (he : a.ejectaT < a.meltT)
    (ht : a.targetT < a.meltT) : meltFracTeq heat a mr draw = .ok (0, 0) := by
  obtain ⟨k, hk, hkn, _⟩ := ejectaCount_range a.n mr hmr
  rcases Nat.lt_or_ge k a.n with hlt | hge
  · rw [meltFracTeq_loop heat a mr draw k hk hlt]
    have hc : (initTemps a (draw k)).all (fun t => decide (t < a.meltT)) = true := by
      rw [List.all_eq_true]
      intro t ht'
      unfold initTemps at ht'
      obtain ⟨i, _, rfl⟩ := List.mem_map.mp ht'
      simp only [decide_eq_true_eq]
      split <;> assumption
    have hL : meltLoop heat a.meltT a.eqThresh a.maxIter (initTemps a (draw k))
        (initMelted a.n (draw k)) = .ok (initMelted a.n (draw k), 0) := by
      cases a.maxIter with
      | zero => rfl
      | succ m =>
        apply meltLoop_succ_stop
        unfold keepHeating
        rw [hc]; simp
    rw [hL]
    obtain ⟨hnd, hdl, hdi⟩ := hd k hkn
    have : (initMelted a.n (draw k)).countP id = k := by
      rw [countP_range _ a.n (by simp [initMelted]) (fun i => decide (i ∈ draw k))
        (by intro i hi; simp [initMelted, hi]), countP_draw a.n (draw k) hnd hdi, hdl]
    simp [Except.map, this]
  · have : k = a.n := by omega
    subst this
    rw [meltFracTeq_full heat a mr draw hk, if_neg (not_le.mpr he)]

/-- **C66** Pure ejecta (mixing ratio 0): 1 or 0 according to the ejecta temperature. -/
theorem C66_pure_ejecta (heat : List K → Except PyErr (List K)) (a : MeltArgs K)
    (draw : Nat → List Nat) :
    meltFracTeq heat a 0 draw = .ok (if a.meltT ≤ a.ejectaT then 1 else 0, 0) := by
  apply meltFracTeq_full
  unfold ejectaCount pyInt
  rw [if_neg (by norm_num), if_pos (by positivity)]
  congr 1
  norm_num

example : meltFracTeq heat1d { exMelt with ejectaT := 100 } 2 List.range = .ok (0, 0) :=
  C66_cold heat1d _ 2 (by norm_num) List.range (goodDraw_range 4) (by decide +kernel)
    (by decide +kernel)

/-- **C66** (a limit of the code) When ejecta and target start at the same temperature the loop
never runs, so the result is 0 even if everything is above `meltT`: only cells that are at melting
temperature *after* a step are counted. -/
theorem C66_warm_target_not_counted (heat : List K → Except PyErr (List K)) (a : MeltArgs K) (mr : K)
    (draw : Nat → List Nat) (hd : GoodDraw a.n draw) (hsame : a.ejectaT = a.targetT)
    (heq : 0 < a.eqThresh) (k : Nat) (hk : ejectaCount a.n mr = .ok (k : Int)) (hkn : k < a.n) :
    meltFracTeq heat a mr draw = .ok (0, 0) := by
  rw [meltFracTeq_loop heat a mr draw k hk hkn]
  have hc : (npDiff (initTemps a (draw k))).all (fun d => decide (|d| < a.eqThresh)) = true := by
    rw [npDiff_all]
    intro i x y hx hy
    have h1 : x = a.targetT := by
      have := List.mem_of_getElem? hx
      unfold initTemps at this
      obtain ⟨i, _, rfl⟩ := List.mem_map.mp this
      split <;> simp [hsame]
    have h2 : y = a.targetT := by
      have := List.mem_of_getElem? hy
      unfold initTemps at this
      obtain ⟨i, _, rfl⟩ := List.mem_map.mp this
      split <;> simp [hsame]
    rw [h1, h2]; simpa using heq
  have hL : meltLoop heat a.meltT a.eqThresh a.maxIter (initTemps a (draw k))
      (initMelted a.n (draw k)) = .ok (initMelted a.n (draw k), 0) := by
    cases a.maxIter with
    | zero => rfl
    | succ m =>
      apply meltLoop_succ_stop
      unfold keepHeating
      rw [hc]; simp
  rw [hL]
  obtain ⟨hnd, hdl, hdi⟩ := hd k hkn.le
  have : (initMelted a.n (draw k)).countP id = k := by
    rw [countP_range _ a.n (by simp [initMelted]) (fun i => decide (i ∈ draw k))
      (by intro i hi; simp [initMelted, hi]), countP_draw a.n (draw k) hnd hdi, hdl]
  simp [Except.map, this]

/-! ## C65: the pool -/

/-- Number of chunks of `len` tasks. -/
def chunkCount (len s : Nat) : Nat := (len + s - 1) / s

theorem chunkSize_pos (len ncpus : Nat) (h : 0 < len) : 0 < chunkSize len ncpus := by
  unfold chunkSize
  simp only []
  split
  · rename_i h0
    rcases Nat.eq_zero_or_pos (ncpus * 4) with hz | hp
    · rw [hz, Nat.mod_zero] at h0; omega
    · exact Nat.div_pos (Nat.le_of_dvd h (Nat.dvd_of_mod_eq_zero h0)) hp
  · exact Nat.succ_pos _

theorem chunk_lt (len s p : Nat) (hs : 0 < s) (hp : p < len) : p / s < chunkCount len s := by
  unfold chunkCount
  rw [Nat.div_lt_iff_lt_mul hs]
  have := Nat.lt_div_mul_add (a := len + s - 1) hs
  omega

/-- `starmap` returns the results in the order of the arguments, whatever the order in which the
chunks finish. -/
theorem starmap_ok {α β : Type} (f : α → Except PyErr β) (args : List α) (full : List β)
    (hne : args ≠ []) (hf : args.mapM f = .ok full) (ncpus : Nat) (order : List Nat)
    (ho : order.Perm (List.range (chunkCount args.length (chunkSize args.length ncpus)))) :
    starmap f args ncpus order = .ok (full.map some) := by
  have hl := (mapM_ok_inv f args full hf).1
  have hpos : 0 < args.length := List.length_pos_iff.mpr hne
  have hs := chunkSize_pos args.length ncpus hpos
  obtain ⟨buf', h1, h2, h3⟩ := collectChunks_ok f args full hf _ hs order
    (List.replicate args.length none) (by simp [hl])
  unfold starmap
  rw [h1]
  simp only []
  congr 1
  apply List.ext_getElem?
  intro p
  rw [h3 p, List.getElem?_map]
  by_cases hp : p < args.length
  · rw [if_pos]
    rw [ho.mem_iff, List.mem_range]
    exact chunk_lt _ _ _ hs hp
  · rw [List.getElem?_eq_none (l := full) (by omega),
      List.getElem?_eq_none (l := List.replicate _ _) (by simp; omega)]
    simp

/-- **C65** The table computed by a pool of any size equals the table computed sequentially, for
every order in which the chunks of work finish, whenever there is at least one mixing ratio. -/
theorem C65_pool_eq_sequential {S : Type} (f : K → K → S → Except PyErr K) (mrs temps : List K)
    (seeds : List S) (hne : mrs ≠ []) (table : List (List (List K)))
    (h : meltArrSeq f mrs temps seeds = .ok table) (ncpus : Nat) (order : List Nat)
    (ho : order.Perm (List.range (chunkCount mrs.length (chunkSize mrs.length ncpus)))) :
    meltArrPool f mrs temps seeds ncpus order = .ok (table.map some) := by
  have hf : mrs.mapM (meltRow f temps seeds) = .ok table := h
  unfold meltArrPool
  rw [starmap_ok _ mrs table hne hf ncpus order ho]
  have hl := (mapM_ok_inv _ mrs table hf).1
  have : table.map some ≠ [] := by
    intro e
    have : table.length = 0 := by simpa using congrArg List.length e
    rw [hl] at this
    exact hne (List.length_eq_zero_iff.mp this)
  change npStack (table.map some) = _
  unfold npStack
  rw [if_neg this]

/-- **C65** A table is only ever returned complete: if one entry cannot be computed, both raise. -/
theorem C65_errors_agree {S : Type} (f : K → K → S → Except PyErr K) (mrs temps : List K)
    (seeds : List S) (hne : mrs ≠ []) (ncpus : Nat) (order : List Nat)
    (ho : order.Perm (List.range (chunkCount mrs.length (chunkSize mrs.length ncpus)))) :
    (∃ e, meltArrSeq f mrs temps seeds = .error e) ↔
      ∃ e, meltArrPool f mrs temps seeds ncpus order = .error e := by
  have hpos : 0 < mrs.length := List.length_pos_iff.mpr hne
  have hs := chunkSize_pos mrs.length ncpus hpos
  constructor
  · rintro ⟨e, h⟩
    obtain ⟨mr, hmr, e', hmr'⟩ := (mapM_error_iff (meltRow f temps seeds) mrs).mp ⟨e, h⟩
    obtain ⟨p, hp⟩ := List.mem_iff_getElem?.mp hmr
    have hpl := (List.getElem?_eq_some_iff.mp hp).1
    have hc : ∃ e, (collectChunks (meltRow f temps seeds) mrs (chunkSize mrs.length ncpus) order
        (List.replicate mrs.length none) none).2 = some e := by
      rw [collectChunks_err]
      refine Or.inr ⟨p / chunkSize mrs.length ncpus, ?_, ?_⟩
      · rw [ho.mem_iff, List.mem_range]
        exact chunk_lt _ _ _ hs hpl
      · unfold runChunk
        rw [mapM_error_iff]
        refine ⟨mr, ?_, e', hmr'⟩
        rw [List.mem_iff_getElem?]
        refine ⟨p % chunkSize mrs.length ncpus, ?_⟩
        rw [List.getElem?_take, if_pos (Nat.mod_lt _ hs), List.getElem?_drop, Nat.div_add_mod', hp]
    obtain ⟨e'', he⟩ := hc
    refine ⟨e'', ?_⟩
    unfold meltArrPool starmap
    generalize collectChunks (meltRow f temps seeds) mrs (chunkSize mrs.length ncpus) order
        (List.replicate mrs.length none) none = r at he ⊢
    obtain ⟨b, o⟩ := r
    simp only at he
    subst he
    rfl
  · rintro ⟨e, h⟩
    cases hq : meltArrSeq f mrs temps seeds with
    | error e' => exact ⟨e', rfl⟩
    | ok table =>
      rw [C65_pool_eq_sequential f mrs temps seeds hne table hq ncpus order ho] at h
      cases h

theorem collectChunks_first {α β : Type} (f : α → Except PyErr β) (args : List α) (s : Nat) :
    ∀ (order : List Nat) (buf : List (Option β)) (e : PyErr),
      (collectChunks f args s order buf none).2 = some e →
      ∃ pre i post, order = pre ++ i :: post ∧ (∀ j ∈ pre, ∃ r, runChunk f args s j = .ok r) ∧
        runChunk f args s i = .error e
  | [], buf, e, h => by cases h
  | i :: order, buf, e, h => by
    rw [collectChunks] at h
    cases hr : runChunk f args s i with
    | ok res =>
      rw [hr] at h
      obtain ⟨pre, i', post, e1, e2, e3⟩ := collectChunks_first f args s order _ e h
      refine ⟨i :: pre, i', post, by rw [e1]; rfl, ?_, e3⟩
      intro j hj
      rcases List.mem_cons.1 hj with rfl | hj
      · exact ⟨res, hr⟩
      · exact e2 j hj
    | error e' =>
      rw [hr] at h
      have hkeep : ∀ (order : List Nat) (buf : List (Option β)) (e' : PyErr),
          (collectChunks f args s order buf (some e')).2 = some e' := by
        intro order
        induction order with
        | nil => intro buf e'; rfl
        | cons j order ih =>
          intro buf e'
          rw [collectChunks]
          cases runChunk f args s j with
          | ok res => exact ih _ _
          | error e'' => exact ih _ _
      simp only [] at h
      rw [hkeep order buf e'] at h
      injection h with h
      subst h
      exact ⟨[], i, order, rfl, by simp, hr⟩

theorem mapM_first_error {α β : Type} (f : α → Except PyErr β) : ∀ (l : List α) (e : PyErr),
    l.mapM f = .error e → ∃ (p : Nat) (a : α), l[p]? = some a ∧ f a = .error e ∧
      ∀ (q : Nat) a', q < p → l[q]? = some a' → ∃ b, f a' = .ok b
  | [], e, h => by cases h
  | a :: l, e, h => by
    rw [List.mapM_cons] at h
    cases ha : f a with
    | error e' =>
      rw [ha] at h
      injection h with h
      subst h
      exact ⟨0, a, rfl, ha, fun q a' hq => absurd hq (Nat.not_lt_zero q)⟩
    | ok b =>
      rw [ha] at h
      cases hl : l.mapM f with
      | ok bs => simp only [hl, bind, Except.bind, pure, Except.pure] at h; cases h
      | error e' =>
        simp only [hl, bind, Except.bind] at h
        injection h with h
        subst h
        obtain ⟨p, x, h1, h2, h3⟩ := mapM_first_error f l e' hl
        refine ⟨p + 1, x, h1, h2, ?_⟩
        intro q a' hq ha'
        cases q with
        | zero => injection ha' with ha'; subst ha'; exact ⟨b, ha⟩
        | succ q => exact h3 q a' (by omega) ha'

/-- **C65** The exception a pool raises is that of the first row it cannot compute in the first chunk to
finish with one, chunk `k` being rows `k * size` up to `(k + 1) * size`. -/
theorem C65_first_error {S : Type} (f : K → K → S → Except PyErr K) (mrs temps : List K)
    (seeds : List S) (hne : mrs ≠ []) (ncpus : Nat) (order : List Nat)
    (ho : order.Perm (List.range (chunkCount mrs.length (chunkSize mrs.length ncpus)))) (e : PyErr)
    (h : meltArrPool f mrs temps seeds ncpus order = .error e) :
    ∃ pre k post size, order = pre ++ k :: post ∧ 0 < size ∧
      (∀ j ∈ pre, ∀ (p : Nat) mr, j * size ≤ p → p < (j + 1) * size → mrs[p]? = some mr →
        ∃ row, meltArrSeq f [mr] temps seeds = .ok [row]) ∧
      ∃ (p : Nat) (mr : K), k * size ≤ p ∧ p < (k + 1) * size ∧ mrs[p]? = some mr ∧
        meltArrSeq f [mr] temps seeds = .error e ∧
        ∀ (q : Nat) mr', k * size ≤ q → q < p → mrs[q]? = some mr' →
          ∃ row, meltArrSeq f [mr'] temps seeds = .ok [row] := by
  have hpos : 0 < mrs.length := List.length_pos_iff.mpr hne
  have hs := chunkSize_pos mrs.length ncpus hpos
  have hsing : ∀ mr, meltArrSeq f [mr] temps seeds = (meltRow f temps seeds mr).map (fun r => [r]) := by
    intro mr
    show [mr].mapM (meltRow f temps seeds) = _
    rw [List.mapM_cons, List.mapM_nil]
    cases meltRow f temps seeds mr <;> rfl
  have hget : ∀ (k q : Nat), q < chunkSize mrs.length ncpus →
      ((mrs.drop (k * chunkSize mrs.length ncpus)).take (chunkSize mrs.length ncpus))[q]? =
        mrs[k * chunkSize mrs.length ncpus + q]? := by
    intro k q hq
    rw [List.getElem?_take, if_pos hq, List.getElem?_drop]
  have hcol : (collectChunks (meltRow f temps seeds) mrs (chunkSize mrs.length ncpus) order
      (List.replicate mrs.length none) none).2 = some e := by
    cases hseq : meltArrSeq f mrs temps seeds with
    | ok table =>
      rw [C65_pool_eq_sequential f mrs temps seeds hne table hseq ncpus order ho] at h
      cases h
    | error e' =>
      obtain ⟨b, o⟩ : ∃ r, r = collectChunks (meltRow f temps seeds) mrs (chunkSize mrs.length ncpus)
        order (List.replicate mrs.length none) none := ⟨_, rfl⟩
      unfold meltArrPool starmap at h
      rw [← o] at h ⊢
      obtain ⟨buf, err⟩ := b
      cases err with
      | some e'' =>
        simp only [bind, Except.bind] at h
        injection h with h
        rw [h]
      | none =>
        exfalso
        obtain ⟨mr, hmr, e', hmr'⟩ := (mapM_error_iff (meltRow f temps seeds) mrs).mp ⟨e', hseq⟩
        obtain ⟨p, hp⟩ := List.mem_iff_getElem?.mp hmr
        have hpl := (List.getElem?_eq_some_iff.mp hp).1
        have hc : ∃ e, (collectChunks (meltRow f temps seeds) mrs (chunkSize mrs.length ncpus) order
            (List.replicate mrs.length none) none).2 = some e := by
          rw [collectChunks_err]
          refine Or.inr ⟨p / chunkSize mrs.length ncpus, ?_, ?_⟩
          · rw [ho.mem_iff, List.mem_range]
            exact chunk_lt _ _ _ hs hpl
          · unfold runChunk
            rw [mapM_error_iff]
            refine ⟨mr, ?_, e', hmr'⟩
            rw [List.mem_iff_getElem?]
            refine ⟨p % chunkSize mrs.length ncpus, ?_⟩
            rw [List.getElem?_take, if_pos (Nat.mod_lt _ hs), List.getElem?_drop, Nat.div_add_mod', hp]
        obtain ⟨e'', he⟩ := hc
        rw [← o] at he
        cases he
  obtain ⟨pre, k, post, e1, e2, e3⟩ := collectChunks_first _ _ _ _ _ _ hcol
  refine ⟨pre, k, post, chunkSize mrs.length ncpus, e1, hs, ?_, ?_⟩
  · intro j hj p mr h1 h2 hp
    obtain ⟨r, hr⟩ := e2 j hj
    unfold runChunk at hr
    obtain ⟨-, hall⟩ := mapM_ok_inv _ _ _ hr
    have hlt : p - j * chunkSize mrs.length ncpus < chunkSize mrs.length ncpus := by
      rw [Nat.add_mul, Nat.one_mul] at h2; omega
    obtain ⟨row, -, hrow⟩ := hall (p - j * chunkSize mrs.length ncpus) mr (by
      rw [hget j _ hlt, Nat.add_sub_cancel' h1, hp])
    exact ⟨row, by rw [hsing, hrow]; rfl⟩
  · unfold runChunk at e3
    obtain ⟨p, mr, p1, p2, p3⟩ := mapM_first_error _ _ _ e3
    have hlt : p < chunkSize mrs.length ncpus := by
      have := (List.getElem?_eq_some_iff.1 p1).1
      rw [List.length_take] at this
      omega
    rw [hget k p hlt] at p1
    refine ⟨k * chunkSize mrs.length ncpus + p, mr, by omega, by rw [Nat.add_mul, Nat.one_mul]; omega, p1,
      by rw [hsing, p2]; rfl, ?_⟩
    intro q mr' h1 h2 hq
    obtain ⟨row, hrow⟩ := p3 (q - k * chunkSize mrs.length ncpus) mr' (by omega) (by
      rw [hget k _ (by omega), Nat.add_sub_cancel' h1, hq])
    exact ⟨row, by rw [hsing, hrow]; rfl⟩

/-- **C65 refuted** for an empty list of mixing ratios: sequentially the result is an empty table,
in a pool `np.stack` raises `ValueError`. -/
theorem C65_refuted_empty {S : Type} (f : K → K → S → Except PyErr K) (temps : List K)
    (seeds : List S) (ncpus : Nat) :
    meltArrSeq f [] temps seeds = .ok [] ∧
      meltArrPool f [] temps seeds ncpus [] = .error .valueError := ⟨rfl, rfl⟩

/-- Nine ratios on one or two workers: chunks of two (one left over), finishing in a mixed order. -/
example : meltArrPool (S := Nat) (fun (mr t : ℚ) s => .ok (mr + t + s)) [(1 : ℚ), 2, 3, 4, 5, 6, 7, 8, 9]
    [10, 20] [0, 1] 1 [2, 0, 1] = .ok (([(1 : ℚ), 2, 3, 4, 5, 6, 7, 8, 9].map
      (fun mr => [[mr + 10, mr + 10 + 1], [mr + 20, mr + 20 + 1]])).map some) := by
  apply C65_pool_eq_sequential (S := Nat) (fun (mr t : ℚ) s => .ok (mr + t + s)) _ _ _ (by simp)
  · decide +kernel
  · decide

end MoonPIES
