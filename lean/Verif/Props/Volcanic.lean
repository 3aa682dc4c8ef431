import Verif.Model.Ice
import Mathlib.Tactic.FieldSimp
import Mathlib.Tactic.Ring
import Mathlib.Tactic.Linarith
import Mathlib.Tactic.NormNum
import Mathlib.Algebra.BigOperators.Group.List.Basic
import Mathlib.Data.List.Basic
import Mathlib.Data.Rat.Floor

/-!
# C45, C46: volcanic ice
-/

namespace MoonPIES

set_option linter.unusedSectionVars false

variable {K : Type} [Field K] [LinearOrder K] [IsStrictOrderedRing K]

/-- Spec: `t` lies in the half-open epoch `(start, end)` counted back in time. -/
def InEpoch (e : K × K) (t : K) : Prop := e.2 < t ∧ t ≤ e.1

instance (e : K × K) (t : K) : Decidable (InEpoch e t) := inferInstanceAs (Decidable (_ ∧ _))

/-- Spec: the ice mass per year of activity. -/
def headIcePerYear (cfg : HeadCfg K) : K :=
  cfg.volc_total_vol * cfg.volc_magma_density * (cfg.volc_ice_ppm / 1000000)

/-- **C45** step by step: the late rate in the late epoch, else the early rate in the early
epoch, else nothing. -/
theorem C45_steps (cfg : HeadCfg K) (time : List K) :
    (volcanicHead cfg time).length = time.length ∧
    ∀ (i : Nat) t, time[i]? = some t → ∃ x, (volcanicHead cfg time)[i]? = some x ∧
      (InEpoch cfg.volc_late t → x = headIcePerYear cfg * cfg.volc_late_pct * cfg.timestep) ∧
      (¬ InEpoch cfg.volc_late t → InEpoch cfg.volc_early t →
        x = headIcePerYear cfg * cfg.volc_early_pct * cfg.timestep) ∧
      (¬ InEpoch cfg.volc_late t → ¬ InEpoch cfg.volc_early t → x = 0) := by
  unfold volcanicHead
  refine ⟨by simp, ?_⟩
  intro i t ht
  simp only [List.getElem?_map, ht, Option.map_some]
  refine ⟨_, rfl, ?_, ?_, ?_⟩
  · intro h
    rw [if_pos ⟨h.2, h.1⟩]; unfold headIcePerYear; ring
  · intro h h2
    rw [if_neg (fun h3 => h ⟨h3.2, h3.1⟩), if_pos ⟨h2.2, h2.1⟩]; unfold headIcePerYear; ring
  · intro h h2
    rw [if_neg (fun h3 => h ⟨h3.2, h3.1⟩), if_neg (fun h3 => h2 ⟨h3.2, h3.1⟩)]

/-- **C45** total, any time array and any two epochs: a step in both is counted once, as
late. -/
theorem C45_total (cfg : HeadCfg K) (time : List K) :
    (volcanicHead cfg time).sum =
      headIcePerYear cfg * cfg.timestep *
        (cfg.volc_early_pct * (time.countP (fun t => decide (InEpoch cfg.volc_early t ∧
            ¬ InEpoch cfg.volc_late t)) : K) +
          cfg.volc_late_pct * (time.countP (fun t => decide (InEpoch cfg.volc_late t)) : K)) := by
  induction time with
  | nil => simp [volcanicHead]
  | cons t time ih =>
    have hc : volcanicHead cfg (t :: time) = volcanicHead cfg [t] ++ volcanicHead cfg time := by
      simp [volcanicHead]
    rw [hc, List.sum_append, ih, List.countP_cons, List.countP_cons]
    obtain ⟨hl, hs⟩ := C45_steps cfg [t]
    obtain ⟨x, hx, h1, h2, h3⟩ := hs 0 t rfl
    have hsum : (volcanicHead cfg [t]).sum = x := by
      match hv : volcanicHead cfg [t], hl, hx with
      | [y], _, hx => simpa using hx
    rw [hsum]
    by_cases hL : InEpoch cfg.volc_late t
    · rw [h1 hL]; simp only [hL, not_true, and_false, decide_false, decide_true]; push_cast; simp; ring
    · by_cases hE : InEpoch cfg.volc_early t
      · rw [h2 hL hE]; simp only [hL, hE, not_false_iff, and_self, decide_false, decide_true]
        push_cast; simp; ring
      · rw [h3 hL hE]; simp [hL, hE]

/-- **C45** disjoint epochs: early rate times early steps plus late rate times late
steps. -/
theorem C45_total_disjoint (cfg : HeadCfg K) (time : List K)
    (hd : cfg.volc_late.1 ≤ cfg.volc_early.2 ∨ cfg.volc_early.1 ≤ cfg.volc_late.2) :
    (volcanicHead cfg time).sum =
      headIcePerYear cfg * cfg.volc_early_pct * cfg.timestep *
          (time.countP (fun t => decide (InEpoch cfg.volc_early t)) : K) +
        headIcePerYear cfg * cfg.volc_late_pct * cfg.timestep *
          (time.countP (fun t => decide (InEpoch cfg.volc_late t)) : K) := by
  rw [C45_total]
  have : ∀ t, decide (InEpoch cfg.volc_early t ∧ ¬ InEpoch cfg.volc_late t) =
      decide (InEpoch cfg.volc_early t) := by
    intro t
    congr 1
    apply propext
    refine ⟨And.left, fun h => ⟨h, fun h2 => ?_⟩⟩
    rcases hd with hd | hd
    · exact absurd (lt_of_lt_of_le h.1 h2.2) (not_lt.2 hd)
    · exact absurd (lt_of_lt_of_le h2.1 h.2) (not_lt.2 hd)
  simp only [this]
  ring

theorem countP_range_epoch (a b N : Nat) (hab : b ≤ a) (haN : a ≤ N) :
    (List.range N).countP (fun m => decide (b < m + 1 ∧ m + 1 ≤ a)) = a - b := by
  induction N generalizing a with
  | zero => simp; omega
  | succ N ih =>
    rw [List.range_succ, List.countP_append]
    rcases Nat.lt_or_ge N a with h | h
    · have ha : a = N + 1 := by omega
      subst ha
      rcases Nat.lt_or_ge b (N + 1) with hb | hb
      · have e : (List.range N).countP (fun m => decide (b < m + 1 ∧ m + 1 ≤ N + 1)) =
            (List.range N).countP (fun m => decide (b < m + 1 ∧ m + 1 ≤ N)) := by
          apply List.countP_congr
          intro m hm
          have := List.mem_range.1 hm
          simp; omega
        rw [e, ih N (by omega) (le_refl _)]
        have : List.countP (fun m => decide (b < m + 1 ∧ m + 1 ≤ N + 1)) [N] = 1 := by
          simp; omega
        omega
      · have hbe : b = N + 1 := by omega
        subst hbe
        rw [List.countP_eq_zero.2, List.countP_eq_zero.2]
        · omega
        · intro m _; simp <;> omega
        · intro m _; simp <;> omega
    · rw [ih a hab h]
      have : List.countP (fun m => decide (b < m + 1 ∧ m + 1 ≤ a)) [N] = 0 := by
        simp; omega
      omega

/-- **C45** on the model's own grid (multiples of the step down to one step) with epochs on
the grid, the delivered ice is the rate times the years of each epoch: nothing is lost or
counted twice at the shared boundaries. -/
theorem C45_total_years (cfg : HeadCfg K) (N a b c d : Nat) (hts : 0 < cfg.timestep)
    (hE : cfg.volc_early = (cfg.timestep * a, cfg.timestep * b))
    (hL : cfg.volc_late = (cfg.timestep * c, cfg.timestep * d))
    (h1 : b ≤ a) (h2 : d ≤ c) (h3 : c ≤ b) (h4 : a ≤ N) :
    (volcanicHead cfg ((List.range N).reverse.map (fun m : Nat => cfg.timestep * (m + 1 : Nat)))).sum =
      headIcePerYear cfg *
        (cfg.volc_early_pct * (cfg.volc_early.1 - cfg.volc_early.2) +
          cfg.volc_late_pct * (cfg.volc_late.1 - cfg.volc_late.2)) := by
  rw [C45_total_disjoint]
  · have cnt : ∀ p q : Nat, q ≤ p → p ≤ N →
        (((List.range N).reverse.map (fun m : Nat => cfg.timestep * (m + 1 : Nat))).countP
          (fun t => decide (InEpoch (cfg.timestep * p, cfg.timestep * q) t)) : K) = (p : K) - q := by
      intro p q hqp hp
      rw [List.countP_map, List.countP_reverse]
      have e : ((fun t => decide (InEpoch (cfg.timestep * (p : K), cfg.timestep * q) t)) ∘
          (fun m : Nat => cfg.timestep * ((m + 1 : Nat) : K))) =
          fun m => decide (q < m + 1 ∧ m + 1 ≤ p) := by
        funext m
        simp only [Function.comp, InEpoch, mul_lt_mul_iff_right₀ hts, mul_le_mul_iff_right₀ hts,
          Nat.cast_lt, Nat.cast_le]
      rw [e, countP_range_epoch p q N hqp hp, Nat.cast_sub hqp]
    rw [hE, hL, cnt a b h1 h4, cnt c d h2 (by omega)]
    ring
  · left
    rw [hE, hL]
    exact mul_le_mul_of_nonneg_left (by exact_mod_cast h3) hts.le

/-- Early steps 4-5, late steps 2-3 of six. -/
example : volcanicHead (⟨1, 1, 1000000, 3, 2, (50, 30), (30, 10), 10⟩ : HeadCfg ℚ)
    [60, 50, 40, 30, 20, 10] = [0, 30, 30, 20, 20, 0] := by decide +kernel

/-! ### Needham and Kring -/

/-- **C46** does not hold: with `volc_mode` `"NK"` every call stops with `AttributeError`
because `cfg.species` does not exist. -/
theorem C46_refuted (ice : IceCfg K) (head : HeadCfg K) (rint : K → K)
    (sort : List (K × K) → List (K × K)) (tol ts : K) (time : List K) (rows : List (K × K)) :
    volcanicIce "NK" ice head rint sort tol ts time rows = .error .attributeError := by
  have h : cfgGetattr "species" = .error .attributeError := by
    unfold cfgGetattr; rw [if_neg]; decide +kernel
  unfold volcanicIce volcanicNk readVolcanicSpecies
  rw [if_pos rfl, h]
  rfl

/-- An unknown mode is rejected; the Head mode converts the masses to thickness. -/
theorem C46_mode (mode : String) (ice : IceCfg K) (head : HeadCfg K) (rint : K → K)
    (sort : List (K × K) → List (K × K)) (tol ts : K) (time : List K) (rows : List (K × K)) :
    (mode = "Head" → volcanicIce mode ice head rint sort tol ts time rows =
      (volcanicHead head time).mapM (fun m => iceThickness ice m)) ∧
    (mode ≠ "NK" → mode ≠ "Head" →
      volcanicIce mode ice head rint sort tol ts time rows = .error .valueError) := by
  constructor
  · intro h; subst h
    unfold volcanicIce
    rw [if_neg (by decide), if_pos rfl]; rfl
  · intro h1 h2
    unfold volcanicIce
    rw [if_neg h1, if_neg h2]; rfl

theorem setRange_length (l : List K) (i j : Nat) (x : K) : (setRange l i j x).length = l.length := by
  simp [setRange]

theorem setRange_get (l : List K) (i j k : Nat) (x : K) :
    (setRange l i j x)[k]? = (l[k]?).map (fun y => if i ≤ k ∧ k ≤ j then x else y) := by
  simp [setRange, List.getElem?_mapIdx]

/-- Entries after position `i` are zero. -/
def ZeroAfter (l : List K) (i : Nat) : Prop := ∀ (k : Nat) x, i < k → l[k]? = some x → x = 0

theorem sum_zeroAfter (l : List K) (i : Nat) (h : ZeroAfter l i) : l.sum = (l.take (i + 1)).sum := by
  have e : l.sum = (l.take (i + 1)).sum + (l.drop (i + 1)).sum := by
    rw [← List.sum_append, List.take_append_drop]
  have z : (l.drop (i + 1)).sum = 0 := by
    apply List.sum_eq_zero
    intro x hx
    obtain ⟨k, hk⟩ := List.mem_iff_getElem?.1 hx
    rw [List.getElem?_drop] at hk
    exact h _ x (by omega) hk
  rw [e, z, add_zero]

theorem take_setRange_sum (l : List K) (i j : Nat) (x : K) (hij : i ≤ j) (hj : j ≤ l.length) :
    ((setRange l i j x).take j).sum = (l.take i).sum + ((j - i : Nat) : K) * x := by
  have e : (setRange l i j x).take j = l.take i ++ List.replicate (j - i) x := by
    apply List.ext_getElem?
    intro k
    rw [List.getElem?_take, setRange_get, List.getElem?_append, List.getElem?_replicate,
      List.getElem?_take]
    simp only [List.length_take]
    by_cases h1 : k < i
    · rw [if_pos (by omega), if_pos (by omega), if_pos h1]
      cases l[k]? with
      | none => rfl
      | some y => simp; omega
    · by_cases h2 : k < j
      · rw [if_pos h2, if_neg (by omega), if_pos (by omega), List.getElem?_eq_getElem (by omega)]
        simp; omega
      · rw [if_neg h2, if_neg (by omega), if_neg (by omega)]
  rw [e, List.sum_append, List.sum_replicate, nsmul_eq_mul]

/-- Spec: the table masses the loop spreads: all but the last entry. -/
def spreadMass (l : List (Nat × K)) : K := (l.dropLast.map Prod.snd).sum

/-- Spec: one extra step of the last pair (the inclusive end of its slice). -/
def lastExtra : List (Nat × K) → K
  | [(i, m), (j, _)] => m / ((j : K) - i)
  | _ :: b :: rest => lastExtra (b :: rest)
  | _ => 0

/-- **C46** partial: were the attribute present, on an even time grid with table entries at
increasing steps the loop delivers every tabulated mass but the last one exactly once,
plus one step too many of the last pair.  (Missing: conservation, which fails because of
that extra step and the last entry; and the mode being reachable.) -/
theorem C46_loop_partial (time : List K) (ts t0 : K) (hts : 0 < ts)
    (hgrid : ∀ (k : Nat) t, time[k]? = some t → t = t0 - ts * k) :
    ∀ (l : List (Nat × K)) (i : Nat) (m : K) (acc : List K),
      ((i, m) :: l).Pairwise (fun a b => a.1 < b.1) → (∀ p ∈ (i, m) :: l, p.1 < time.length) →
      l ≠ [] → acc.length = time.length → ZeroAfter acc i →
      ∃ out, nkLoop time ts ((i, m) :: l) acc = .ok out ∧ out.length = time.length ∧
        out.sum = (acc.take i).sum + spreadMass ((i, m) :: l) + lastExtra ((i, m) :: l) := by
  intro l
  induction l with
  | nil => intro i m acc _ _ h; exact absurd rfl h
  | cons q l ih =>
    obtain ⟨j, m'⟩ := q
    intro i m acc hp hb _ hal hz
    have hij : i < j := by
      have := (List.pairwise_cons.1 hp).1 (j, m') (by simp); exact this
    have hil : i < time.length := hb (i, m) (by simp)
    have hjl : j < time.length := hb (j, m') (by simp)
    have hji : (0 : K) < (j : K) - i := by
      have : (i : K) < j := by exact_mod_cast hij
      linarith
    have hti := hgrid i _ (List.getElem?_eq_getElem hil)
    have htj := hgrid j _ (List.getElem?_eq_getElem hjl)
    have gi : pyGet time i = .ok (time[i]) := by unfold pyGet; rw [List.getElem?_eq_getElem hil]
    have gj : pyGet time j = .ok (time[j]) := by unfold pyGet; rw [List.getElem?_eq_getElem hjl]
    have hdt : (time[i] - time[j]) / ts = (j : K) - i := by
      rw [hti, htj]; field_simp; ring
    have hstep : nkLoop time ts ((i, m) :: (j, m') :: l) acc =
        nkLoop time ts ((j, m') :: l) (setRange acc i j (m / ((j : K) - i))) := by
      rw [nkLoop, gi]
      simp only [bind, Except.bind]
      rw [gj]
      simp only []
      rw [hdt, if_neg hji.ne']
    have hz' : ZeroAfter (setRange acc i j (m / ((j : K) - i))) j := by
      intro k x hk hx
      rw [setRange_get] at hx
      cases ha : acc[k]? with
      | none => rw [ha] at hx; cases hx
      | some y =>
        rw [ha] at hx
        simp only [Option.map_some, Option.some.injEq] at hx
        rw [if_neg (by omega)] at hx
        rw [← hx]
        exact hz k y (by omega) ha
    have htake := take_setRange_sum acc i j (m / ((j : K) - i)) hij.le (by omega)
    have hmass : ((j - i : Nat) : K) * (m / ((j : K) - i)) = m := by
      rw [Nat.cast_sub hij.le]; field_simp
    rw [hmass] at htake
    cases l with
    | nil =>
      refine ⟨setRange acc i j (m / ((j : K) - i)), ?_, by rw [setRange_length, hal], ?_⟩
      · rw [hstep]; simp [nkLoop]
      · rw [sum_zeroAfter _ j hz', List.take_add_one, List.sum_append, htake, setRange_get,
          List.getElem?_eq_getElem (by omega : j < acc.length)]
        simp [spreadMass, lastExtra, hij.le]
    | cons r l =>
      obtain ⟨out, ho, hl, hs⟩ := ih j m' (setRange acc i j (m / ((j : K) - i)))
        (List.pairwise_cons.1 hp).2 (fun p hp => hb p (List.mem_cons_of_mem _ hp)) (by simp)
        (by rw [setRange_length, hal]) hz'
      refine ⟨out, by rw [hstep, ho], hl, ?_⟩
      rw [hs, htake]
      have e1 : spreadMass ((i, m) :: (j, m') :: r :: l) = m + spreadMass ((j, m') :: r :: l) := by
        simp [spreadMass]
      have e2 : lastExtra ((i, m) :: (j, m') :: r :: l) = lastExtra ((j, m') :: r :: l) := by
        rw [lastExtra]; simp
      rw [e1, e2]; ring

/-- Three table entries over seven steps: 12 and 6 are spread (12 over two steps, 6 over
three with one step too many), 100 is dropped. -/
example : nkLoop ([70, 60, 50, 40, 30, 20, 10] : List ℚ) 10 [(1, 12), (3, 6), (6, 100)]
    [0, 0, 0, 0, 0, 0, 0] = .ok [0, 6, 6, 2, 2, 2, 2] := by decide +kernel

/-- The body of the function on the same data, with table times on the grid. -/
example : volcanicNkBody (fun x : ℚ => ((⌊x + 1 / 2⌋ : ℤ) : ℚ)) (1 / 1000000) 10
    ([70, 60, 50, 40, 30, 20, 10] : List ℚ) [(60, 12), (40, 6), (10, 100)] =
      .ok [0, 6, 6, 2, 2, 2, 2] := by decide +kernel

end MoonPIES
