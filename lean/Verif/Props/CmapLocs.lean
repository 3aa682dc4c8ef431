import Verif.Props.Cmap
import Verif.Lemmas.Main

/-!
# C87: colour maps with given locations
-/

namespace MoonPIES

open Spec

variable {K : Type} [Field K] [LinearOrder K] [IsStrictOrderedRing K]

/-- Spec: a table of 256 entries that has the first value (256ths) at its start, the last at its
end, and between two neighbouring locations the straight line between their values. -/
def Spec.Placed (locs : List K) (c : List Nat) (table : List K) : Prop :=
  table.length = 256 ∧ (∀ n, c.head? = some n → table[0]? = some ((n : K) / 256)) ∧
  (∀ n, c.getLast? = some n → table[255]? = some ((n : K) / 256)) ∧
  ∀ (i : Nat) v, 0 < i → i < 255 → table[i]? = some v → ∃ (j : Nat) (l l' : K) (x y : Nat),
    locs[j]? = some l ∧ locs[j + 1]? = some l' ∧ c[j]? = some x ∧ c[j + 1]? = some y ∧
    l < (i : K) / 255 ∧ (i : K) / 255 ≤ l' ∧
    (v - (x : K) / 256) * (l' - l) = ((i : K) / 255 - l) * ((y : K) / 256 - (x : K) / 256)

/-- The table of values at given locations. -/
theorem lookupTable_locs (L : List (K × K)) (p : K × K) (rest : List (K × K)) (q : K × K)
    (hp : L = p :: rest) (hlast : L.getLast? = some q) (hp1 : p.1 = 0) (hq1 : q.1 = 1)
    (hchain : L.IsChain (fun a b => a.1 ≤ b.1)) (h01 : ∀ x ∈ L, 0 ≤ x.2 ∧ x.2 ≤ 1) :
    ∃ table, lookupTable L = .ok table ∧ table.length = 256 ∧ table[0]? = some p.2 ∧
      table[255]? = some q.2 ∧ ∀ (i : Nat) v, 0 < i → i < 255 → table[i]? = some v →
        ∃ (j : Nat) (a b : K × K), L[j]? = some a ∧ L[j + 1]? = some b ∧ a.1 < (i : K) / 255 ∧
          (i : K) / 255 ≤ b.1 ∧ (v - a.2) * (b.1 - a.1) = ((i : K) / 255 - a.1) * (b.2 - a.2) := by
  have hclip : ∀ x : K, 0 ≤ x ∧ x ≤ 1 → clip01 x = x := by
    intro x hx
    unfold clip01
    rw [max_eq_left hx.1, min_eq_left hx.2]
  have hqm : q ∈ L := List.mem_of_getLast? hlast
  have hqr : q ∈ rest := by
    rw [hp] at hqm
    rcases List.mem_cons.1 hqm with rfl | h
    · rw [hp1] at hq1; exact absurd hq1 zero_ne_one
    · exact h
  have hmid : ∀ i ∈ List.range 254, ∃ v, lutFrom (((i + 1 : Nat) : K)) (p.1 * 255, p.2)
      (rest.map (fun r => (r.1 * 255, r.2))) = .ok v ∧ clip01 v = v ∧
      ∃ (j : Nat) (a b : K × K), L[j]? = some a ∧ L[j + 1]? = some b ∧
        a.1 < ((i + 1 : Nat) : K) / 255 ∧ ((i + 1 : Nat) : K) / 255 ≤ b.1 ∧
        (v - a.2) * (b.1 - a.1) = (((i + 1 : Nat) : K) / 255 - a.1) * (b.2 - a.2) := by
    intro i hi
    rw [List.mem_range] at hi
    have hi' : ((i + 1 : Nat) : K) < 255 := by exact_mod_cast (show i + 1 < 255 by omega)
    have hi0 : (0 : K) < ((i + 1 : Nat) : K) := by exact_mod_cast (show 0 < i + 1 by omega)
    obtain ⟨j, a, b, ha, hb, hat, hbt, hv⟩ := lutFrom_spec (((i + 1 : Nat) : K))
      (rest.map (fun r => (r.1 * 255, r.2))) (p.1 * 255, p.2) (by rw [hp1, zero_mul]; exact hi0)
      ⟨(q.1 * 255, q.2), List.mem_map.2 ⟨q, hqr, rfl⟩, by rw [hq1, one_mul]; exact hi'.le⟩
    have hs : ((p.1 * 255, p.2) :: rest.map (fun r => (r.1 * 255, r.2))) =
        L.map (fun r => (r.1 * 255, r.2)) := by rw [hp]; rfl
    rw [hs, List.getElem?_map, Option.map_eq_some_iff] at ha hb
    obtain ⟨a', ha', rfl⟩ := ha
    obtain ⟨b', hb', rfl⟩ := hb
    simp only at hat hbt hv
    generalize ((i + 1 : Nat) : K) = t at *
    have t1 : a'.1 < t / 255 := by rw [lt_div_iff₀ (by norm_num)]; exact hat
    have t2 : t / 255 ≤ b'.1 := by rw [div_le_iff₀ (by norm_num)]; exact hbt
    have hd : 0 < b'.1 - a'.1 := by linarith
    have e : (t - a'.1 * 255) / (b'.1 * 255 - a'.1 * 255) * (b'.2 - a'.2) + a'.2 =
        a'.2 + (t / 255 - a'.1) / (b'.1 - a'.1) * (b'.2 - a'.2) := by
      have : b'.1 * 255 - a'.1 * 255 = (b'.1 - a'.1) * 255 := by ring
      rw [this]
      field_simp
      ring
    rw [e] at hv
    refine ⟨_, hv, interp_unit (h01 _ (List.mem_of_getElem? ha')) (h01 _ (List.mem_of_getElem? hb'))
      (by apply div_nonneg <;> linarith) (by rw [div_le_one hd]; linarith), j, a', b', ha', hb', t1, t2,
      ?_⟩
    field_simp
    ring
  obtain ⟨mid, hmo, hml, hmi⟩ := mapM_ok (fun i : Nat => lutFrom (((i + 1 : Nat) : K))
    (p.1 * 255, p.2) (rest.map (fun r => (r.1 * 255, r.2)))) (List.range 254)
    (fun i hi => by obtain ⟨v, hv, -⟩ := hmid i hi; exact ⟨v, hv⟩)
  rw [List.length_range] at hml
  refine ⟨(p.2 :: mid ++ [q.2]).map clip01, ?_, by simp [hml], ?_, ?_, ?_⟩
  · unfold lookupTable
    subst hp
    simp only [hlast]
    rw [if_neg (by rw [hp1, hq1]; simp), if_neg (by rw [not_not]; exact hchain), hmo]
    rfl
  · simp only [List.cons_append, List.map_cons, List.getElem?_cons_zero]
    rw [hclip _ (h01 p (by rw [hp]; simp))]
  · rw [List.getElem?_map, List.cons_append, List.getElem?_cons_succ,
      List.getElem?_append_right (by omega), hml]
    simp only [Nat.sub_self, List.getElem?_cons_zero, Option.map_some]
    rw [hclip _ (h01 q hqm)]
  · intro i v hi0 hi hv
    rw [List.getElem?_map, Option.map_eq_some_iff] at hv
    obtain ⟨w, hw, rfl⟩ := hv
    obtain ⟨k, rfl⟩ : ∃ k, i = k + 1 := ⟨i - 1, by omega⟩
    rw [List.cons_append, List.getElem?_cons_succ, List.getElem?_append_left (by omega)] at hw
    obtain ⟨b, hb1, hb2⟩ := hmi k k (by rw [List.getElem?_range (by omega)])
    obtain ⟨v, hv, hcl, hI⟩ := hmid k (List.mem_range.2 (by omega))
    rw [hw] at hb1
    cases hb1
    have hwv : w = v := by
      have := hb2.symm.trans hv
      simpa using this
    rw [hwv, hcl]
    exact hI

/-- **C87** colours with given locations: each channel interpolates between the colours at their
locations. -/
theorem C87_locs (ss : List String) (cols : List (Nat × Nat × Nat)) (locs : List K)
    (h : List.Forall₂ HexColour ss cols) (hl : locs.length = ss.length) (h0 : locs.head? = some 0)
    (h1 : locs.getLast? = some 1) (hs : locs.Pairwise (· ≤ ·)) :
    ∃ m : Cmap K, makeCmap ss (some locs) = .ok m ∧ Placed locs (cols.map (fun c => c.1)) m.red ∧
      Placed locs (cols.map (fun c => c.2.1)) m.green ∧
      Placed locs (cols.map (fun c => c.2.2)) m.blue := by
  have hlen := h.length_eq
  have hrgb := mapM_hex h
  have hlt := hex_le h
  obtain ⟨dec, hdec⟩ : ∃ t : List (List K), t = (cols.map (fun c => [c.1, c.2.1, c.2.2])).map rgbToDec :=
    ⟨_, rfl⟩
  have hdl : dec.length = cols.length := by rw [hdec]; simp
  have chan : ∀ (num : Nat) (f : Nat × Nat × Nat → Nat),
      (∀ c : Nat × Nat × Nat, (rgbToDec [c.1, c.2.1, c.2.2] : List K)[num]? =
        some ((f c : K) / 256)) → (∀ c ∈ cols, f c ≤ 255) →
      ∃ knots table, cmapKnots locs dec num = .ok knots ∧ lookupTable knots = .ok table ∧
        Placed locs (cols.map f) table := by
    intro num f hf hfl
    obtain ⟨c, hc⟩ : ∃ t : List K, t = (cols.map f).map (fun n : Nat => (n : K) / 256) := ⟨_, rfl⟩
    have hcl : c.length = cols.length := by rw [hc]; simp
    obtain ⟨L, hL⟩ : ∃ t, t = locs.zip c := ⟨_, rfl⟩
    have hLl : L.length = locs.length := by rw [hL, List.length_zip, hcl]; omega
    have hget : ∀ (j : Nat) q, L[j]? = some q → locs[j]? = some q.1 ∧ ∃ n, (cols.map f)[j]? = some n ∧
        q.2 = (n : K) / 256 := by
      intro j q hq
      rw [hL, List.getElem?_zip_eq_some, hc, List.getElem?_map, Option.map_eq_some_iff] at hq
      obtain ⟨a, n, b, e⟩ := hq
      exact ⟨a, n, b, e.symm⟩
    have hpos : 0 < locs.length := by
      cases locs with
      | nil => simp at h0
      | cons _ _ => simp
    obtain ⟨p, rest, hp⟩ : ∃ p rest, L = p :: rest := by
      cases h : L with
      | nil => rw [h] at hLl; simp at hLl; omega
      | cons p rest => exact ⟨p, rest, rfl⟩
    obtain ⟨q, hq⟩ : ∃ q, L[locs.length - 1]? = some q := ⟨_, List.getElem?_eq_getElem (by omega)⟩
    have hlast : L.getLast? = some q := by rw [List.getLast?_eq_getElem?, hLl, hq]
    obtain ⟨p1, np, p2, p3⟩ := hget 0 p (by rw [hp]; rfl)
    obtain ⟨q1, nq, q2, q3⟩ := hget _ q hq
    rw [← List.head?_eq_getElem?, h0, Option.some.injEq] at p1
    rw [← List.getLast?_eq_getElem?, h1, Option.some.injEq] at q1
    have hchain : L.IsChain (fun a b => a.1 ≤ b.1) := by
      rw [List.isChain_iff_getElem]
      intro j hj
      have a := (hget j _ (List.getElem?_eq_getElem (by omega))).1
      have b := (hget (j + 1) _ (List.getElem?_eq_getElem hj)).1
      obtain ⟨la, ea⟩ := List.getElem?_eq_some_iff.1 a
      obtain ⟨lb, eb⟩ := List.getElem?_eq_some_iff.1 b
      rw [← ea, ← eb]
      exact List.pairwise_iff_getElem.1 hs j (j + 1) la lb (by omega)
    obtain ⟨table, t1, t2, t3, t4, t5⟩ := lookupTable_locs L p rest q hp hlast p1.symm q1.symm hchain (by
      intro x hx
      obtain ⟨j, hj⟩ := List.mem_iff_getElem?.1 hx
      obtain ⟨-, n, hn, e⟩ := hget j x hj
      obtain ⟨y, hy, rfl⟩ := List.mem_map.1 (List.mem_of_getElem? hn)
      have : (f y : K) ≤ 255 := by exact_mod_cast hfl y hy
      have h0 : (0 : K) ≤ f y := Nat.cast_nonneg _
      rw [e]
      constructor
      · positivity
      · rw [div_le_one (by norm_num)]; linarith)
    refine ⟨L, table, ?_, t1, t2, ?_, ?_, ?_⟩
    · unfold cmapKnots
      rw [hL]
      apply cmapKnots_zip num locs dec c 0 dec (by rw [hdl]; omega)
      · intro i rgb hr
        refine ⟨by rw [Nat.zero_add]; exact hr, ?_⟩
        rw [hdec, List.map_map, List.getElem?_map, Option.map_eq_some_iff] at hr
        obtain ⟨col, hcol, rfl⟩ := hr
        simp only [Function.comp]
        rw [hf, hc, List.map_map, List.getElem?_map, hcol]
        rfl
      · rw [hcl, hdl]
    · intro n hn
      rw [List.head?_eq_getElem?, p2, Option.some.injEq] at hn
      rw [t3, p3, hn]
    · intro n hn
      have e : (cols.map f).length - 1 = locs.length - 1 := by rw [List.length_map]; omega
      rw [List.getLast?_eq_getElem?, e, q2, Option.some.injEq] at hn
      rw [t4, q3, hn]
    · intro i v hi0 hi hv
      obtain ⟨j, a, b, ha, hb, h3, h4, h5⟩ := t5 i v hi0 hi hv
      obtain ⟨a1, n, a2, a3⟩ := hget _ _ ha
      obtain ⟨b1, n', b2, b3⟩ := hget _ _ hb
      refine ⟨j, a.1, b.1, n, n', a1, b1, a2, b2, h3, h4, ?_⟩
      rw [← a3, ← b3]
      exact h5
  obtain ⟨kr, tr, r1, r2, r3⟩ := chan 0 (fun c => c.1) (fun _ => rfl) (fun c hc => (hlt c hc).1)
  obtain ⟨kg, tg, g1, g2, g3⟩ := chan 1 (fun c => c.2.1) (fun _ => rfl) (fun c hc => (hlt c hc).2.1)
  obtain ⟨kb, tb, b1, b2, b3⟩ := chan 2 (fun c => c.2.2) (fun _ => rfl) (fun c hc => (hlt c hc).2.2)
  refine ⟨⟨tr, tg, tb⟩, ?_, r3, g3, b3⟩
  unfold makeCmap cmapLocs
  simp only [bind, Except.bind, hrgb]
  rw [← hdec]
  simp only [r1, g1, b1, r2, g2, b2]

omit [IsStrictOrderedRing K] in
/-- **C87** more locations than colours, or locations that do not start with 0 or end with 1, make no
map. -/
theorem C87_locs_refused (ss : List String) (locs : List K)
    (h : ss.length < locs.length ∨ locs.head? ≠ some 0 ∨ locs.getLast? ≠ some 1) :
    ∀ m : Cmap K, makeCmap ss (some locs) ≠ .ok m := by
  intro m hm
  unfold makeCmap at hm
  obtain ⟨rgbs, h1, hm⟩ := bind_ok_inv hm
  obtain ⟨l, h2, hm⟩ := bind_ok_inv hm
  obtain ⟨r, h3, hm⟩ := bind_ok_inv hm
  obtain ⟨g, h4, hm⟩ := bind_ok_inv hm
  obtain ⟨b, h5, hm⟩ := bind_ok_inv hm
  obtain ⟨r', h6, hm⟩ := bind_ok_inv hm
  unfold cmapLocs at h2
  injection h2 with h2
  subst h2
  obtain ⟨n1, n2⟩ := mapM_ok_inv _ _ _ h1
  unfold cmapKnots at h3
  obtain ⟨k1, k2⟩ := mapM_ok_inv _ _ _ h3
  -- every location has a knot
  have key : ∀ (i : Nat) x, locs[i]? = some x → i < ss.length ∧ ∃ y, r[i]? = some (x, y) := by
    intro i x hx
    obtain ⟨b, hb, e⟩ := k2 i (x, i) (by rw [List.getElem?_zipIdx, hx]; simp)
    simp only at e
    split at e
    · cases e
    · rename_i rgb hrgb
      split at e
      · cases e
      · rename_i y hy
        cases e
        refine ⟨?_, y, hb⟩
        have := (List.getElem?_eq_some_iff.1 hrgb).1
        rw [List.length_map, n1] at this
        exact this
  rw [List.length_zipIdx] at k1
  unfold lookupTable at h6
  split at h6
  · cases h6
  · rename_i p rest
    split at h6
    · cases h6
    · rename_i q hq
      split at h6
      · cases h6
      · rename_i hends
        rw [not_or, not_not, not_not] at hends
        have hpos : 0 < locs.length := by rw [← k1]; simp
        rcases h with h | h | h
        · have := (key ss.length _ (List.getElem?_eq_getElem h)).1
          omega
        · apply h
          obtain ⟨-, y, hy⟩ := key 0 _ (List.getElem?_eq_getElem hpos)
          rw [List.getElem?_cons_zero, Option.some.injEq] at hy
          rw [List.head?_eq_getElem?, List.getElem?_eq_getElem hpos, ← hends.1, hy]
        · apply h
          obtain ⟨-, y, hy⟩ := key (locs.length - 1) _ (List.getElem?_eq_getElem (by omega))
          rw [List.getLast?_eq_getElem?, k1, hy, Option.some.injEq] at hq
          rw [List.getLast?_eq_getElem?, List.getElem?_eq_getElem (by omega), ← hends.2, ← hq]

/-- Three colours with the middle one at a quarter. -/
example : ∃ m : Cmap ℚ, makeCmap ["#000000", "#804020", "ffffff"] (some [0, 1 / 4, 1]) = .ok m ∧
    Placed [0, 1 / 4, 1] [0, 128, 255] m.red ∧ Placed [0, 1 / 4, 1] [0, 64, 255] m.green ∧
    Placed [0, 1 / 4, 1] [0, 32, 255] m.blue := by
  refine C87_locs _ [(0, 0, 0), (128, 64, 32), (255, 255, 255)] _ ?_ rfl rfl rfl (by decide +kernel)
  refine List.Forall₂.cons ?_ (List.Forall₂.cons ?_ (List.Forall₂.cons ?_ List.Forall₂.nil))
  · exact ⟨'0', '0', '0', '0', '0', '0', 0, 0, 0, 0, 0, 0, by decide, by decide⟩
  · exact ⟨'8', '0', '4', '0', '2', '0', 8, 0, 4, 0, 2, 0, by decide, by decide⟩
  · exact ⟨'f', 'f', 'f', 'f', 'f', 'f', 15, 15, 15, 15, 15, 15, by decide, by decide⟩

end MoonPIES
