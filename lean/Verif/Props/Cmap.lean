import Verif.Spec.Cmap
import Verif.Lemmas.Except
import Mathlib.Tactic.IntervalCases
import Mathlib.Tactic.Linarith
import Mathlib.Tactic.FieldSimp
import Mathlib.Tactic.Ring
import Mathlib.Tactic.NormNum
import Mathlib.Tactic.Positivity
import Mathlib.Algebra.Order.Floor.Ring
import Mathlib.Data.Rat.Floor

/-!
# C87: colour maps
-/

namespace MoonPIES

open Spec

theorem digit_lt {c : Char} {n : Nat} (h : Digit c n) : n < 16 := by
  rcases h with h | h <;> exact (List.getElem?_eq_some_iff.1 h).1

theorem hexDigit_spec {c : Char} {n : Nat} (h : Digit c n) : hexDigit c = some n ∧ c ≠ '#' := by
  have hn := digit_lt h
  unfold Digit at h
  interval_cases n <;> (rcases h with h | h <;> simp at h <;> subst h <;> decide)

theorem intHex_two {a b : Char} {x y : Nat} (ha : Digit a x) (hb : Digit b y) :
    intHex [a, b] = .ok (16 * x + y) := by
  simp [intHex, hexFrom, (hexDigit_spec ha).1, (hexDigit_spec hb).1]

theorem stripHash_six {a b c d e f : Char} (ha : a ≠ '#') (hf : f ≠ '#') :
    stripHash [a, b, c, d, e, f] = [a, b, c, d, e, f] ∧
    stripHash ['#', a, b, c, d, e, f] = [a, b, c, d, e, f] := by
  have ha' : (a == '#') = false := by simpa using ha
  have hf' : (f == '#') = false := by simpa using hf
  constructor <;> simp [stripHash, List.dropWhile, ha', hf']

/-- **C87** six digits give the three values. -/
theorem C87_hex (s : String) (r g b : Nat) (h : HexColour s (r, g, b)) :
    hexToRgb s = .ok [r, g, b] := by
  obtain ⟨a1, a0, b1, b0, c1, c0, r1, r0, g1, g0, u1, u0, hs, d1, d2, d3, d4, d5, d6, e⟩ := h
  simp only [Prod.mk.injEq] at e
  obtain ⟨rfl, rfl, rfl⟩ := e
  obtain ⟨s1, s2⟩ := stripHash_six (b := a0) (c := b1) (d := b0) (e := c1)
    (hexDigit_spec d1).2 (hexDigit_spec d6).2
  have hv : stripHash s.toList = [a1, a0, b1, b0, c1, c0] := by
    rcases hs with hs | hs <;> rw [hs] <;> assumption
  unfold hexToRgb
  simp only [hv]
  have : List.range 3 = [0, 1, 2] := rfl
  simp [this, intHex_two d1 d2, intHex_two d3 d4, intHex_two d5 d6]
  rfl

/-- **C87 refuted** for the short form of a colour: three digits are read as three values below 16,
so white becomes almost black. -/
theorem C87_short_refuted : hexToRgb "#fff" = .ok [15, 15, 15] ∧
    hexToRgb "#ffffff" = .ok [255, 255, 255] := by decide +kernel

theorem hexFrom_digits (cs : List Char) (h : ∀ c ∈ cs, ∃ n, Digit c n) : ∀ acc,
    ∃ n, hexFrom acc cs = .ok n ∧ n < (acc + 1) * 16 ^ cs.length := by
  induction cs with
  | nil => intro acc; exact ⟨acc, rfl, by simp⟩
  | cons c cs ih =>
    intro acc
    obtain ⟨d, hd⟩ := h c (by simp)
    obtain ⟨n, h1, h2⟩ := ih (fun x hx => h x (by simp [hx])) (16 * acc + d)
    refine ⟨n, by unfold hexFrom; simp only [(hexDigit_spec hd).1]; exact h1, h2.trans_le ?_⟩
    have := digit_lt hd
    rw [List.length_cons, pow_succ, mul_comm (16 ^ cs.length) 16, ← mul_assoc]
    exact Nat.mul_le_mul_right _ (by omega)

theorem dropHash (k : Nat) (v : List Char) (h : v.head? ≠ some '#') :
    (List.replicate k '#' ++ v).dropWhile (· == '#') = v := by
  induction k with
  | zero =>
    cases v with
    | nil => rfl
    | cons a v =>
      have : (a == '#') = false := by simpa using h
      simp [this]
  | succ k ih => rw [List.replicate_succ, List.cons_append, List.dropWhile_cons_of_pos (by simp), ih]

/-- **C87** any number of digits: without the `#` at both ends, fewer than three characters raise, and
three or more digits are accepted; there are three values if their number is a multiple of three, and
each is less than 16 to the power of the digits of a value. -/
theorem C87_digits (s : String) (k l : Nat) (v : List Char)
    (hs : s.toList = List.replicate k '#' ++ v ++ List.replicate l '#') (hd : ∀ c ∈ v, ∃ n, Digit c n) :
    (v.length < 3 → hexToRgb s = .error .valueError) ∧
    (3 ≤ v.length → ∃ rgb, hexToRgb s = .ok rgb ∧ (3 ∣ v.length → rgb.length = 3) ∧
      ∀ x ∈ rgb, x < 16 ^ (v.length / 3)) := by
  rcases Nat.eq_zero_or_pos v.length with h0 | h0
  · have hv := List.length_eq_zero_iff.1 h0
    subst hv
    refine ⟨fun _ => ?_, fun h => absurd h (by simp)⟩
    have : stripHash s.toList = [] := by
      rw [hs, List.append_nil, ← List.replicate_add]
      unfold stripHash
      have := dropHash (k + l) [] (by simp)
      rw [List.append_nil] at this
      rw [this]
      rfl
    unfold hexToRgb
    simp [this]
  have hmem : ∀ c ∈ v, c ≠ '#' := fun c hc => by
    obtain ⟨n, hn⟩ := hd c hc
    exact (hexDigit_spec hn).2
  have hv : stripHash s.toList = v := by
    rw [hs]
    unfold stripHash
    rw [List.append_assoc, dropHash k _ (by
      cases v with
      | nil => simp at h0
      | cons a v => simpa using hmem a (by simp)), List.reverse_append, List.reverse_replicate,
      dropHash l _ (by
        intro e
        rw [List.head?_reverse] at e
        exact hmem _ (List.mem_of_getLast? e) rfl), List.reverse_reverse]
  constructor
  · intro h
    unfold hexToRgb
    simp only [hv]
    rw [if_pos (by omega)]
  · intro h
    have hst : 0 < v.length / 3 := by omega
    unfold hexToRgb
    simp only [hv]
    rw [if_neg (by omega)]
    obtain ⟨st, hste⟩ : ∃ t, t = v.length / 3 := ⟨_, rfl⟩
    rw [← hste] at hst ⊢
    obtain ⟨rgb, hr, hlt, hlen⟩ : ∃ rgb, (List.range ((v.length + st - 1) / st)).mapM
        (fun i => intHex ((v.drop (i * st)).take st)) = .ok rgb ∧ (∀ x ∈ rgb, x < 16 ^ st) ∧
        rgb.length = (v.length + st - 1) / st := by
      have hall : ∀ i ∈ List.range ((v.length + st - 1) / st),
          ∃ n, intHex ((v.drop (i * st)).take st) = .ok n ∧ n < 16 ^ st := by
        intro i hi
        rw [List.mem_range, Nat.lt_iff_add_one_le, Nat.le_div_iff_mul_le hst] at hi
        have hlen : i * st < v.length := by
          have : (i + 1) * st = i * st + st := by ring
          omega
        obtain ⟨w, hw⟩ : ∃ w, w = (v.drop (i * st)).take st := ⟨_, rfl⟩
        have hwl : w.length ≤ st := by rw [hw]; exact List.length_take_le _ _
        have hwd : ∀ c ∈ w, ∃ n, Digit c n := fun c hc =>
          hd c (List.mem_of_mem_drop (List.mem_of_mem_take (hw ▸ hc)))
        have hw0 : 0 < w.length := by rw [hw, List.length_take, List.length_drop]; omega
        rw [← hw]
        obtain ⟨n, h1, h2⟩ := hexFrom_digits w hwd 0
        rw [Nat.zero_add, Nat.one_mul] at h2
        refine ⟨n, ?_, h2.trans_le (Nat.pow_le_pow_right (by norm_num) hwl)⟩
        cases w with
        | nil => simp at hw0
        | cons c w => exact h1
      obtain ⟨f, hf⟩ : ∃ f : Nat → Nat, ∀ i ∈ List.range ((v.length + st - 1) / st),
          intHex ((v.drop (i * st)).take st) = .ok (f i) ∧ f i < 16 ^ st := by
        refine ⟨fun i => match intHex ((v.drop (i * st)).take st) with | .ok n => n | .error _ => 0, ?_⟩
        intro i hi
        obtain ⟨n, h1, h2⟩ := hall i hi
        simp only [h1]
        exact ⟨trivial, h2⟩
      refine ⟨_, mapM_eq_map _ _ f (fun i hi => (hf i hi).1), ?_, by simp⟩
      intro x hx
      obtain ⟨i, hi, rfl⟩ := List.mem_map.1 hx
      exact (hf i hi).2
    refine ⟨rgb, hr, ?_, hlt⟩
    rintro ⟨m, hm⟩
    have : st = m := by omega
    subst this
    rw [hlen, hm]
    rw [show 3 * st + st - 1 = (st - 1) + st * 3 by omega, Nat.add_mul_div_left _ _ hst,
      Nat.div_eq_of_lt (by omega)]

/-- Five digits make five values of one digit. -/
example : hexToRgb "#12345" = .ok [1, 2, 3, 4, 5] := by decide +kernel

variable {K : Type} [Field K] [LinearOrder K] [IsStrictOrderedRing K]

omit [IsStrictOrderedRing K] in
/-- An entry of the table lies between two neighbouring knots. -/
theorem lutFrom_spec (t : K) : ∀ (rest : List (K × K)) (prev : K × K), prev.1 < t →
    (∃ q ∈ rest, t ≤ q.1) → ∃ (j : Nat) (a b : K × K), (prev :: rest)[j]? = some a ∧
      (prev :: rest)[j + 1]? = some b ∧ a.1 < t ∧ t ≤ b.1 ∧
      lutFrom t prev rest = .ok ((t - a.1) / (b.1 - a.1) * (b.2 - a.2) + a.2)
  | [], _, _, h => by obtain ⟨q, hq, -⟩ := h; cases hq
  | q :: rest, prev, hp, h => by
    unfold lutFrom
    by_cases hq : q.1 < t
    · rw [if_pos hq]
      obtain ⟨j, a, b, h1, h2, h3, h4, h5⟩ := lutFrom_spec t rest q hq (by
        obtain ⟨x, hx, hxt⟩ := h
        rcases List.mem_cons.1 hx with rfl | hx
        · exact absurd hq (not_lt.2 hxt)
        · exact ⟨x, hx, hxt⟩)
      exact ⟨j + 1, a, b, h1, h2, h3, h4, h5⟩
    · rw [if_neg hq]
      exact ⟨0, prev, q, rfl, rfl, hp, not_lt.1 hq, rfl⟩

/-- An interpolated value stays in the unit interval. -/
theorem interp_unit {x y f : K} (hx : 0 ≤ x ∧ x ≤ 1) (hy : 0 ≤ y ∧ y ≤ 1) (h0 : 0 ≤ f)
    (h1 : f ≤ 1) : clip01 (x + f * (y - x)) = x + f * (y - x) := by
  have e : x + f * (y - x) = (1 - f) * x + f * y := by ring
  have a1 : 0 ≤ (1 - f) * x := mul_nonneg (by linarith) hx.1
  have a2 : 0 ≤ f * y := mul_nonneg h0 hy.1
  have a3 : (1 - f) * x ≤ (1 - f) * 1 := mul_le_mul_of_nonneg_left hx.2 (by linarith)
  have a4 : f * y ≤ f * 1 := mul_le_mul_of_nonneg_left hy.2 h0
  unfold clip01
  rw [max_eq_left (by rw [e]; linarith), min_eq_left (by rw [e]; linarith)]

/-- The table of evenly spaced values in the unit interval. -/
theorem lookupTable_even (c : List K) (hc : 2 ≤ c.length) (h01 : ∀ x ∈ c, 0 ≤ x ∧ x ≤ 1) :
    ∃ table, lookupTable (((List.range c.length).map (fun i : Nat =>
        (0 : K) + (i : K) * ((1 - 0) / ((c.length : K) - 1)))).zip c) = .ok table ∧
      table.length = 256 ∧ ∀ (i : Nat) v, table[i]? = some v → Interpolated c i v := by
  obtain ⟨L, hL⟩ : ∃ t, t = ((List.range c.length).map (fun i : Nat =>
        (0 : K) + (i : K) * ((1 - 0) / ((c.length : K) - 1)))).zip c := ⟨_, rfl⟩
  obtain ⟨m, hm⟩ : ∃ m : K, m = ((c.length - 1 : Nat) : K) := ⟨_, rfl⟩
  have hmc : (c.length : K) - 1 = m := by
    rw [hm, Nat.cast_sub (by omega), Nat.cast_one]
  have hm0 : 0 < m := by
    rw [hm]; exact_mod_cast (show 0 < c.length - 1 by omega)
  have hlen : L.length = c.length := by rw [hL]; simp
  have hget : ∀ (j : Nat) q, L[j]? = some q → c[j]? = some q.2 ∧ q.1 = (j : K) / m := by
    intro j q hq
    rw [hL, List.getElem?_zip_eq_some, List.getElem?_map, Option.map_eq_some_iff] at hq
    obtain ⟨⟨k, hk, e⟩, h2⟩ := hq
    have hjk : j = k := by
      obtain ⟨h, e⟩ := List.getElem?_eq_some_iff.1 hk
      rw [List.getElem_range] at e
      exact e
    refine ⟨h2, ?_⟩
    rw [← e, hmc, ← hjk]; ring
  rw [← hL]
  obtain ⟨p, rest, hp⟩ : ∃ p rest, L = p :: rest := by
    cases h : L with
    | nil => rw [h] at hlen; simp at hlen; omega
    | cons p rest => exact ⟨p, rest, rfl⟩
  obtain ⟨q, hq⟩ : ∃ q, L[c.length - 1]? = some q :=
    ⟨_, List.getElem?_eq_getElem (by omega)⟩
  have hlast : (p :: rest).getLast? = some q := by
    rw [← hp, List.getLast?_eq_getElem?, hlen, hq]
  have hp0 := hget 0 p (by rw [hp]; rfl)
  have hq0 := hget _ q hq
  have hp1 : p.1 = 0 := by rw [hp0.2]; simp
  have hq1 : q.1 = 1 := by rw [hq0.2, ← hm]; exact div_self hm0.ne'
  have hchain : (p :: rest).IsChain (fun a b => a.1 ≤ b.1) := by
    rw [← hp, List.isChain_iff_getElem]
    intro j hj
    rw [(hget j _ (List.getElem?_eq_getElem (by omega))).2,
      (hget (j + 1) _ (List.getElem?_eq_getElem hj)).2]
    push_cast
    apply div_le_div_of_nonneg_right _ hm0.le
    linarith
  -- the entries between the ends
  have hmid : ∀ i ∈ List.range 254, ∃ v, lutFrom (((i + 1 : Nat) : K)) (p.1 * 255, p.2)
      (rest.map (fun r => (r.1 * 255, r.2))) = .ok v ∧ Interpolated c (i + 1) v ∧ clip01 v = v := by
    intro i hi
    rw [List.mem_range] at hi
    have hi' : ((i + 1 : Nat) : K) < 255 := by exact_mod_cast (show i + 1 < 255 by omega)
    have hi0 : (0 : K) < ((i + 1 : Nat) : K) := by exact_mod_cast (show 0 < i + 1 by omega)
    obtain ⟨j, a, b, ha, hb, hat, hbt, hv⟩ := lutFrom_spec (((i + 1 : Nat) : K))
      (rest.map (fun r => (r.1 * 255, r.2))) (p.1 * 255, p.2) (by rw [hp1, zero_mul]; exact hi0) (by
        refine ⟨(q.1 * 255, q.2), ?_, by rw [hq1, one_mul]; exact hi'.le⟩
        apply List.mem_map.2 ⟨q, ?_, rfl⟩
        rw [hp] at hq
        rw [show c.length - 1 = (c.length - 2) + 1 by omega, List.getElem?_cons_succ] at hq
        exact List.mem_of_getElem? hq)
    have hs : ((p.1 * 255, p.2) :: rest.map (fun r => (r.1 * 255, r.2))) =
        L.map (fun r => (r.1 * 255, r.2)) := by rw [hp]; rfl
    rw [hs, List.getElem?_map, Option.map_eq_some_iff] at ha hb
    obtain ⟨a', ha', rfl⟩ := ha
    obtain ⟨b', hb', rfl⟩ := hb
    have hA := hget _ _ ha'
    have hB := hget _ _ hb'
    simp only at hat hbt hv
    rw [hA.2] at hat hv
    rw [hB.2] at hbt hv
    push_cast at hbt hv hat
    have t1 : (j : K) * 255 < ((i : K) + 1) * m := by
      rw [div_mul_eq_mul_div, div_lt_iff₀ hm0] at hat; exact hat
    have t2 : ((i : K) + 1) * m ≤ ((j : K) + 1) * 255 := by
      rw [div_mul_eq_mul_div, le_div_iff₀ hm0] at hbt; exact hbt
    have e : ((i : K) + 1 - (j : K) / m * 255) / (((j : K) + 1) / m * 255 - (j : K) / m * 255) *
        (b'.2 - a'.2) + a'.2 =
        a'.2 + (((i : K) + 1) * m / 255 - j) * (b'.2 - a'.2) := by
      have : ((j : K) + 1) / m * 255 - (j : K) / m * 255 = 255 / m := by ring
      rw [this]
      field_simp
      ring
    refine ⟨_, (by push_cast; exact hv), ?_, ?_⟩
    · refine ⟨j, a'.2, b'.2, hA.1, hB.1, ?_, ?_, ?_⟩
      · rw [hm] at t1; exact_mod_cast t1.le
      · rw [hm] at t2; exact_mod_cast t2
      · rw [e, hm]; push_cast; rfl
    · rw [e]
      apply interp_unit (h01 _ (List.mem_of_getElem? hA.1)) (h01 _ (List.mem_of_getElem? hB.1))
      · rw [sub_nonneg, le_div_iff₀ (by norm_num)]; exact t1.le
      · rw [sub_le_iff_le_add, div_le_iff₀ (by norm_num)]; linarith
  obtain ⟨mid, hmo, hml, hmi⟩ := mapM_ok (fun i : Nat => lutFrom (((i + 1 : Nat) : K))
    (p.1 * 255, p.2) (rest.map (fun r => (r.1 * 255, r.2)))) (List.range 254)
    (fun i hi => by obtain ⟨v, hv, -⟩ := hmid i hi; exact ⟨v, hv⟩)
  refine ⟨(p.2 :: mid ++ [q.2]).map clip01, ?_, ?_, ?_⟩
  · unfold lookupTable
    rw [hp]
    simp only [hlast]
    rw [if_neg (by rw [hp1, hq1]; simp), if_neg (by rw [not_not]; exact hchain), hmo]
    rfl
  · simp [hml]
  · have hclip : ∀ x : K, 0 ≤ x ∧ x ≤ 1 → clip01 x = x := by
      intro x hx
      unfold clip01
      rw [max_eq_left hx.1, min_eq_left hx.2]
    intro i v hv
    rw [List.getElem?_map, Option.map_eq_some_iff] at hv
    obtain ⟨w, hw, rfl⟩ := hv
    rw [List.length_range] at hml
    cases i with
    | zero =>
      simp only [List.cons_append, List.getElem?_cons_zero, Option.some.injEq] at hw
      subst hw
      obtain ⟨y, hy⟩ : ∃ y, c[1]? = some y := ⟨_, List.getElem?_eq_getElem (by omega)⟩
      rw [hclip _ (h01 _ (List.mem_of_getElem? hp0.1))]
      exact ⟨0, p.2, y, hp0.1, hy, by simp, by simp, by simp⟩
    | succ i =>
      rw [List.cons_append, List.getElem?_cons_succ] at hw
      rcases Nat.lt_or_ge i 254 with hi | hi
      · rw [List.getElem?_append_left (by omega)] at hw
        obtain ⟨b, hb1, hb2⟩ := hmi i i (by rw [List.getElem?_range hi])
        obtain ⟨v, hv, hI, hcl⟩ := hmid i (List.mem_range.2 hi)
        rw [hw] at hb1
        cases hb1
        have hwv : w = v := by
          have := hb2.symm.trans hv
          simpa using this
        rw [hwv, hcl]
        exact hI
      · rw [List.getElem?_append_right (by omega), hml] at hw
        have hi' : i = 254 := by
          have := (List.getElem?_eq_some_iff.1 hw).1
          simp at this
          omega
        subst hi'
        simp only [Nat.sub_self, List.getElem?_cons_zero, Option.some.injEq] at hw
        subst hw
        obtain ⟨y, hy⟩ : ∃ y, c[c.length - 2]? = some y :=
          ⟨_, List.getElem?_eq_getElem (by omega)⟩
        rw [hclip _ (h01 _ (List.mem_of_getElem? hq0.1))]
        have hl2 : c.length - 2 + 1 = c.length - 1 := by omega
        refine ⟨c.length - 2, y, q.2, hy, by rw [hl2]; exact hq0.1, ?_, ?_, ?_⟩
        · omega
        · rw [hl2]; omega
        · have e : ((c.length - 1 : Nat) : K) = ((c.length - 2 : Nat) : K) + 1 := by
            rw [← hl2]; push_cast; ring
          rw [e]
          push_cast
          field_simp
          ring

/-- Neighbouring interpolated entries follow the order of the values. -/
theorem interpolated_antitone {c : List K} (hc : c.Pairwise (fun x y => y ≤ x)) {i i' : Nat}
    {v v' : K} (h : Interpolated c i v) (h' : Interpolated c i' v') (hi : i ≤ i') : v' ≤ v := by
  obtain ⟨j, x, y, hx, hy, h1, h2, rfl⟩ := h
  obtain ⟨k, x', y', hx', hy', h1', h2', rfl⟩ := h'
  have mono : ∀ (a b : Nat) u w, c[a]? = some u → c[b]? = some w → a ≤ b → w ≤ u := by
    intro a b u w hu hw hab
    rcases Nat.lt_or_ge a b with hlt | hge
    · obtain ⟨la, rfl⟩ := List.getElem?_eq_some_iff.1 hu
      obtain ⟨lb, rfl⟩ := List.getElem?_eq_some_iff.1 hw
      exact List.pairwise_iff_getElem.1 hc a b la lb hlt
    · have : a = b := by omega
      subst this
      rw [hu] at hw; cases hw; exact le_rfl
  obtain ⟨n, hn⟩ : ∃ n, n = c.length - 1 := ⟨_, rfl⟩
  rw [← hn] at h1 h2 h1' h2' ⊢
  have hii : i * n ≤ i' * n := Nat.mul_le_mul_right _ hi
  have b1 : (j : K) ≤ (i : K) * n / 255 := by
    rw [le_div_iff₀ (by norm_num)]; exact_mod_cast h1
  have b2 : (i : K) * n / 255 ≤ (j : K) + 1 := by
    rw [div_le_iff₀ (by norm_num)]; exact_mod_cast h2
  have b1' : (k : K) ≤ (i' : K) * n / 255 := by
    rw [le_div_iff₀ (by norm_num)]; exact_mod_cast h1'
  have b2' : (i' : K) * n / 255 ≤ (k : K) + 1 := by
    rw [div_le_iff₀ (by norm_num)]; exact_mod_cast h2'
  have b3 : (i : K) * n / 255 ≤ (i' : K) * n / 255 := by
    apply div_le_div_of_nonneg_right _ (by norm_num)
    exact_mod_cast hii
  generalize (i : K) * n / 255 = f at *
  generalize (i' : K) * n / 255 = f' at *
  have hxy := mono j (j + 1) x y hx hy (by omega)
  have hxy' := mono k (k + 1) x' y' hx' hy' (by omega)
  rcases lt_trichotomy j k with hjk | rfl | hjk
  · have := mono (j + 1) k y x' hy hx' hjk
    have l1 : y ≤ x + (f - j) * (y - x) := by nlinarith
    have l2 : x' + (f' - k) * (y' - x') ≤ x' := by nlinarith
    linarith
  · rw [hx] at hx'; cases hx'
    rw [hy] at hy'; cases hy'
    nlinarith
  · have e1 : (k : K) + 1 ≤ j := by exact_mod_cast hjk
    have ef : f = j := by linarith
    have ef' : f' = k + 1 := by linarith
    have ejk : j = k + 1 := by
      have : (j : K) = k + 1 := by linarith
      exact_mod_cast this
    subst ejk
    rw [hx] at hy'; cases hy'
    rw [ef, ef']
    push_cast
    linarith

omit [IsStrictOrderedRing K] [LinearOrder K] [Field K] in
theorem cmapKnots_zip (num : Nat) : ∀ (locs : List K) (rgbs : List (List K)) (c : List K) (k : Nat)
    (all : List (List K)), locs.length = rgbs.length →
    (∀ (i : Nat) rgb, rgbs[i]? = some rgb → all[k + i]? = some rgb ∧ rgb[num]? = c[i]?) →
    c.length = rgbs.length →
    (locs.zipIdx k).mapM (fun p =>
      match all[p.2]? with
      | none => (.error .indexError : Except PyErr (K × K))
      | some rgb =>
        match rgb[num]? with
        | none => .error .indexError
        | some c => .ok (p.1, c)) = .ok (locs.zip c)
  | [], rgbs, c, k, all, hl, h, hc => by
    cases c with
    | nil => rfl
    | cons x c => rfl
  | l :: locs, rgbs, c, k, all, hl, h, hc => by
    cases rgbs with
    | nil => cases hl
    | cons rgb rgbs =>
      cases c with
      | nil => cases hc
      | cons x c =>
        obtain ⟨h1, h2⟩ := h 0 rgb rfl
        simp only [Nat.add_zero] at h1
        simp only [List.getElem?_cons_zero] at h2
        have ih := cmapKnots_zip num locs rgbs c (k + 1) all (by simpa using hl) (by
          intro i r hr
          obtain ⟨a, b⟩ := h (i + 1) r hr
          refine ⟨by rw [show k + 1 + i = k + (i + 1) by omega]; exact a, b⟩) (by simpa using hc)
        rw [List.zipIdx_cons, List.mapM_cons, ih]
        simp only [h1, h2]
        rfl

theorem mapM_hex {ss : List String} {cols : List (Nat × Nat × Nat)}
    (h : List.Forall₂ HexColour ss cols) :
    ss.mapM hexToRgb = .ok (cols.map (fun c => [c.1, c.2.1, c.2.2])) := by
  induction h with
  | nil => rfl
  | cons hc _ ih =>
    rw [List.mapM_cons, C87_hex _ _ _ _ hc, ih]
    rfl

theorem hex_le {ss : List String} {cols : List (Nat × Nat × Nat)}
    (h : List.Forall₂ HexColour ss cols) : ∀ c ∈ cols, c.1 ≤ 255 ∧ c.2.1 ≤ 255 ∧ c.2.2 ≤ 255 := by
  have hlen := h.length_eq
  intro c hc
  obtain ⟨i, hi⟩ := List.mem_iff_getElem?.1 hc
  obtain ⟨hil, hie⟩ := List.getElem?_eq_some_iff.1 hi
  have := (List.forall₂_iff_get.1 h).2 i (by omega) hil
  rw [show cols.get ⟨i, hil⟩ = c from hie] at this
  obtain ⟨_, _, _, _, _, _, r1, r0, g1, g0, u1, u0, -, d1, d2, d3, d4, d5, d6, rfl⟩ := this
  have := digit_lt d1
  have := digit_lt d2
  have := digit_lt d3
  have := digit_lt d4
  have := digit_lt d5
  have := digit_lt d6
  refine ⟨?_, ?_, ?_⟩ <;> simp only <;> omega

/-- **C87** evenly spaced colours of six digits: each channel of the map interpolates linearly
between the listed colours. -/
theorem C87_gradient (ss : List String) (cols : List (Nat × Nat × Nat))
    (h : List.Forall₂ HexColour ss cols) (hl : 2 ≤ ss.length) :
    ∃ m : Cmap K, makeCmap ss none = .ok m ∧ Gradient (cols.map (fun c => c.1)) m.red ∧
      Gradient (cols.map (fun c => c.2.1)) m.green ∧
      Gradient (cols.map (fun c => c.2.2)) m.blue := by
  have hlen := h.length_eq
  have hrgb := mapM_hex h
  have hlt := hex_le h
  obtain ⟨dec, hdec⟩ : ∃ t : List (List K), t = (cols.map (fun c => [c.1, c.2.1, c.2.2])).map rgbToDec :=
    ⟨_, rfl⟩
  have hdl : dec.length = cols.length := by rw [hdec]; simp
  obtain ⟨locs, hlocs⟩ : ∃ t : List K, t = (List.range cols.length).map (fun i : Nat =>
    (0 : K) + (i : K) * ((1 - 0) / ((cols.length : K) - 1))) := ⟨_, rfl⟩
  have hls : cmapLocs (none : Option (List K)) dec.length = .ok locs := by
    unfold cmapLocs
    simp only
    unfold linspace
    rw [if_neg (by omega), if_neg (by rw [hdl]; omega), hdl, hlocs]
    simp
  -- one channel
  have chan : ∀ (num : Nat) (f : Nat × Nat × Nat → Nat),
      (∀ c : Nat × Nat × Nat, (rgbToDec [c.1, c.2.1, c.2.2] : List K)[num]? =
        some ((f c : K) / 256)) → (∀ c ∈ cols, f c ≤ 255) →
      ∃ knots table, cmapKnots locs dec num = .ok knots ∧ lookupTable knots = .ok table ∧
        Gradient (cols.map f) table := by
    intro num f hf hfl
    obtain ⟨c, hc⟩ : ∃ t : List K, t = (cols.map f).map (fun n : Nat => (n : K) / 256) := ⟨_, rfl⟩
    have hcl : c.length = cols.length := by rw [hc]; simp
    refine ⟨locs.zip c, ?_⟩
    obtain ⟨table, h1, h2, h3⟩ := lookupTable_even c (by omega) (by
      intro x hx
      rw [hc, List.map_map, List.mem_map] at hx
      obtain ⟨y, hy, rfl⟩ := hx
      have : (f y : K) ≤ 255 := by exact_mod_cast hfl y hy
      have h0 : (0 : K) ≤ f y := Nat.cast_nonneg _
      simp only [Function.comp]
      constructor
      · positivity
      · rw [div_le_one (by norm_num)]; linarith)
    refine ⟨table, ?_, ?_, h2, ?_⟩
    · unfold cmapKnots
      apply cmapKnots_zip num locs dec c 0 dec (by rw [hlocs, hdl]; simp)
      · intro i rgb hr
        refine ⟨by rw [Nat.zero_add]; exact hr, ?_⟩
        rw [hdec, List.map_map, List.getElem?_map, Option.map_eq_some_iff] at hr
        obtain ⟨col, hcol, rfl⟩ := hr
        simp only [Function.comp]
        rw [hf, hc, List.map_map, List.getElem?_map, hcol]
        rfl
      · rw [hcl, hdl]
    · rw [hlocs, ← hcl]; exact h1
    · rw [← hc]; exact h3
  obtain ⟨kr, tr, r1, r2, r3⟩ := chan 0 (fun c => c.1) (fun _ => rfl) (fun c hc => (hlt c hc).1)
  obtain ⟨kg, tg, g1, g2, g3⟩ := chan 1 (fun c => c.2.1) (fun _ => rfl) (fun c hc => (hlt c hc).2.1)
  obtain ⟨kb, tb, b1, b2, b3⟩ := chan 2 (fun c => c.2.2) (fun _ => rfl) (fun c hc => (hlt c hc).2.2)
  refine ⟨⟨tr, tg, tb⟩, ?_, r3, g3, b3⟩
  unfold makeCmap
  simp only [bind, Except.bind, hrgb]
  rw [← hdec, hls]
  simp only [r1, g1, b1, r2, g2, b2]

variable [FloorRing K]

omit [IsStrictOrderedRing K] in
theorem cmapIndex_lt (p : K) : cmapIndex p < 256 := by
  unfold cmapIndex
  split
  · norm_num
  · rename_i h0
    split
    · rename_i h1
      rw [not_lt] at h0
      have : ⌊p / 100 * 256⌋ < 256 := Int.floor_lt.2 (by exact_mod_cast h1)
      omega
    · norm_num

theorem cmapIndex_mono {p q : K} (h : p ≤ q) : cmapIndex p ≤ cmapIndex q := by
  have hpq : p / 100 ≤ q / 100 := div_le_div_of_nonneg_right h (by norm_num)
  unfold cmapIndex
  by_cases h0 : p / 100 < 0
  · rw [if_pos h0]; exact Nat.zero_le _
  · rw [if_neg h0, if_neg (not_lt.2 ((not_lt.1 h0).trans hpq))]
    by_cases h1 : q / 100 * 256 < 256
    · rw [if_pos h1, if_pos (by linarith)]
      exact Int.toNat_le_toNat (Int.floor_mono (by linarith))
    · rw [if_neg h1]
      split
      · rename_i h2
        have : ⌊p / 100 * 256⌋ < 256 := Int.floor_lt.2 (by exact_mod_cast h2)
        omega
      · exact le_rfl

/-- Within the scale, the entry is the one of the 256 steps that holds the percentage. -/
theorem cmapIndex_step {p : K} (h0 : 0 ≤ p) (h1 : p ≤ 100) :
    (cmapIndex p : K) * 100 ≤ p * 256 ∧ p * 256 ≤ ((cmapIndex p : K) + 1) * 100 := by
  unfold cmapIndex
  rw [if_neg (not_lt.2 (div_nonneg h0 (by norm_num)))]
  by_cases h2 : p / 100 * 256 < 256
  · rw [if_pos h2]
    have hn : 0 ≤ p / 100 * 256 := by positivity
    have hf : (⌊p / 100 * 256⌋.toNat : K) = (⌊p / 100 * 256⌋ : K) := by
      have : ((⌊p / 100 * 256⌋.toNat : Int) : K) = (⌊p / 100 * 256⌋ : K) := by
        rw [Int.toNat_of_nonneg (Int.floor_nonneg.2 hn)]
      rw [← this]; push_cast; rfl
    rw [hf]
    have a := Int.floor_le (p / 100 * 256)
    have b := (Int.lt_floor_add_one (p / 100 * 256)).le
    constructor <;> linarith
  · rw [if_neg h2]
    push_cast
    constructor <;> linarith

/-- **C87** a map whose listed colours get darker in each channel: more ice is never drawn lighter. -/
theorem C87_ordered (ss : List String) (cols : List (Nat × Nat × Nat))
    (h : List.Forall₂ HexColour ss cols) (hl : 2 ≤ ss.length)
    (hdark : cols.Pairwise (fun a b => b.1 ≤ a.1 ∧ b.2.1 ≤ a.2.1 ∧ b.2.2 ≤ a.2.2)) :
    ∃ m : Cmap K, makeCmap ss none = .ok m ∧ m.colour none = .ok none ∧
      (∀ p, ∃ c, m.colour (some p) = .ok (some c)) ∧
      ∀ p q, p ≤ q → ∀ c c', m.colour (some p) = .ok (some c) → m.colour (some q) = .ok (some c') →
        c'.1 ≤ c.1 ∧ c'.2.1 ≤ c.2.1 ∧ c'.2.2 ≤ c.2.2 := by
  obtain ⟨m, hm, hr, hg, hb⟩ := C87_gradient (K := K) ss cols h hl
  have hcol : ∀ p, ∃ r g b, m.red[cmapIndex p]? = some r ∧ m.green[cmapIndex p]? = some g ∧
      m.blue[cmapIndex p]? = some b ∧ m.colour (some p) = .ok (some (r, g, b)) := by
    intro p
    have hi := cmapIndex_lt p
    have e1 := List.getElem?_eq_getElem (l := m.red) (i := cmapIndex p) (by rw [hr.1]; exact hi)
    have e2 := List.getElem?_eq_getElem (l := m.green) (i := cmapIndex p) (by rw [hg.1]; exact hi)
    have e3 := List.getElem?_eq_getElem (l := m.blue) (i := cmapIndex p) (by rw [hb.1]; exact hi)
    refine ⟨_, _, _, e1, e2, e3, ?_⟩
    simp only [Cmap.colour, e1, e2, e3]
  refine ⟨m, hm, rfl, fun p => ?_, ?_⟩
  · obtain ⟨r, g, b, -, -, -, e⟩ := hcol p
    exact ⟨_, e⟩
  · have hpw : ∀ f : Nat × Nat × Nat → Nat, (cols.Pairwise (fun a b => f b ≤ f a)) →
        ((cols.map f).map (fun n : Nat => (n : K) / 256)).Pairwise (fun x y => y ≤ x) := by
      intro f hf
      rw [List.pairwise_map, List.pairwise_map]
      refine hf.imp ?_
      intro a b hab
      apply div_le_div_of_nonneg_right _ (by norm_num)
      exact_mod_cast hab
    intro p q hpq c c' hc hc'
    obtain ⟨r, g, b, a1, a2, a3, e⟩ := hcol p
    obtain ⟨r', g', b', b1, b2, b3, e'⟩ := hcol q
    rw [e] at hc; rw [e'] at hc'
    simp only [Except.ok.injEq, Option.some.injEq] at hc hc'
    subst hc; subst hc'
    have hi := cmapIndex_mono hpq
    exact ⟨interpolated_antitone (hpw _ (hdark.imp (fun h => h.1))) (hr.2 _ _ a1) (hr.2 _ _ b1) hi,
      interpolated_antitone (hpw _ (hdark.imp (fun h => h.2.1))) (hg.2 _ _ a2) (hg.2 _ _ b2) hi,
      interpolated_antitone (hpw _ (hdark.imp (fun h => h.2.2))) (hb.2 _ _ a3) (hb.2 _ _ b3) hi⟩

instance (c : Char) (n : Nat) : Decidable (Digit c n) := inferInstanceAs (Decidable (_ ∨ _))

theorem default_colours : List.Forall₂ HexColour cmapColors [(211, 211, 211), (31, 119, 180)] := by
  refine List.Forall₂.cons ?_ (List.Forall₂.cons ?_ List.Forall₂.nil)
  · exact ⟨'D', '3', 'D', '3', 'D', '3', 13, 3, 13, 3, 13, 3, by decide, by decide⟩
  · exact ⟨'1', 'f', '7', '7', 'b', '4', 1, 15, 7, 7, 11, 4, by decide, by decide⟩

/-- **C87** the default map: the colour of a percentage is within one step of the straight line from
grey to blue, and equal colours mean percentages no further apart than one of 256 steps. -/
theorem C87_default : ∃ m : Cmap K, makeCmap cmapColors none = .ok m ∧
    (∀ p, 0 ≤ p → p ≤ 100 → ∃ r g b, m.colour (some p) = .ok (some (r, g, b)) ∧
      |256 * r - (211 - 180 * (p / 100))| ≤ 180 / 255 ∧
      |256 * g - (211 - 92 * (p / 100))| ≤ 92 / 255 ∧
      |256 * b - (211 - 31 * (p / 100))| ≤ 31 / 255) ∧
    ∀ p q, 0 ≤ p → p ≤ 100 → 0 ≤ q → q ≤ 100 → m.colour (some p) = m.colour (some q) →
      |p - q| ≤ 100 / 256 := by
  obtain ⟨m, hm, hr, hg, hb⟩ := C87_gradient (K := K) _ _ default_colours (by decide)
  have two : ∀ (x y : Nat) (i : Nat) (v : K),
      Interpolated (([x, y] : List Nat).map (fun n : Nat => (n : K) / 256)) i v →
      256 * v = x + (i : K) / 255 * (y - x) := by
    intro x y i v hI
    obtain ⟨j, a, b, ha, hb, -, -, hv⟩ := hI
    have hj : j = 0 := by
      have := (List.getElem?_eq_some_iff.1 hb).1
      simp at this
      omega
    subst hj
    simp only [List.map_cons, List.map_nil, List.getElem?_cons_zero, Option.some.injEq,
      Nat.zero_add, List.getElem?_cons_succ] at ha hb
    rw [hv, ← ha, ← hb]
    simp only [List.map_cons, List.map_nil, List.length_cons, List.length_nil]
    push_cast
    ring
  have hcol : ∀ p, ∃ r g b, m.colour (some p) = .ok (some (r, g, b)) ∧
      256 * r = 211 + (cmapIndex p : K) / 255 * (31 - 211) ∧
      256 * g = 211 + (cmapIndex p : K) / 255 * (119 - 211) ∧
      256 * b = 211 + (cmapIndex p : K) / 255 * (180 - 211) := by
    intro p
    have hi := cmapIndex_lt p
    obtain ⟨r, e1⟩ : ∃ r, m.red[cmapIndex p]? = some r :=
      ⟨_, List.getElem?_eq_getElem (by rw [hr.1]; exact hi)⟩
    obtain ⟨g, e2⟩ : ∃ g, m.green[cmapIndex p]? = some g :=
      ⟨_, List.getElem?_eq_getElem (by rw [hg.1]; exact hi)⟩
    obtain ⟨b, e3⟩ : ∃ b, m.blue[cmapIndex p]? = some b :=
      ⟨_, List.getElem?_eq_getElem (by rw [hb.1]; exact hi)⟩
    refine ⟨r, g, b, by simp only [Cmap.colour, e1, e2, e3], ?_, ?_, ?_⟩
    · have := two _ _ _ _ (hr.2 _ _ e1); push_cast at this; exact this
    · have := two _ _ _ _ (hg.2 _ _ e2); push_cast at this; exact this
    · have := two _ _ _ _ (hb.2 _ _ e3); push_cast at this; exact this
  refine ⟨m, hm, ?_, ?_⟩
  · intro p h0 h1
    obtain ⟨r, g, b, e, er, eg, eb⟩ := hcol p
    obtain ⟨s1, s2⟩ := cmapIndex_step h0 h1
    refine ⟨r, g, b, e, ?_, ?_, ?_⟩
    · rw [er, abs_le]; constructor <;> linarith
    · rw [eg, abs_le]; constructor <;> linarith
    · rw [eb, abs_le]; constructor <;> linarith
  · intro p q h0 h1 h0' h1' heq
    obtain ⟨r, g, b, e, er, -⟩ := hcol p
    obtain ⟨r', g', b', e', er', -⟩ := hcol q
    rw [e, e'] at heq
    simp only [Except.ok.injEq, Option.some.injEq, Prod.mk.injEq] at heq
    rw [heq.1] at er
    obtain ⟨s1, s2⟩ := cmapIndex_step h0 h1
    obtain ⟨s3, s4⟩ := cmapIndex_step h0' h1'
    have : (cmapIndex p : K) = cmapIndex q := by linarith
    rw [this] at s1 s2
    rw [abs_le]; constructor <;> linarith

/-- The default colours meet the hypotheses of `C87_ordered`. -/
example : 2 ≤ cmapColors.length ∧ ([(211, 211, 211), (31, 119, 180)] : List (Nat × Nat × Nat)).Pairwise
    (fun a b => b.1 ≤ a.1 ∧ b.2.1 ≤ a.2.1 ∧ b.2.2 ≤ a.2.2) := by decide

/-- Half ice in the default map. -/
example : ((makeCmap cmapColors none).bind (fun m : Cmap ℚ => m.colour (some 50))).toOption =
    some (some (31 / 255 * 128 / 256 + 211 / 256 * 127 / 255, 119 * 128 / 255 / 256 + 211 / 256 * 127 / 255,
      180 * 128 / 255 / 256 + 211 / 256 * 127 / 255)) := by decide +kernel

/-- One colour makes no map. -/
example : (makeCmap (K := ℚ) ["#1f77b4"] none).toOption.isNone = true := by decide +kernel

end MoonPIES
