import Verif.Lemmas.Thermal

/-!
# Facts about the melting loop and the process pool
-/

namespace MoonPIES

set_option linter.unusedSectionVars false

variable {K : Type} [Field K] [LinearOrder K] [IsStrictOrderedRing K]

theorem meltLoop_succ_stop (heat : List K → Except PyErr (List K)) (mt eq : K) (fuel : Nat)
    (T : List K) (m : List Bool) (h : keepHeating mt eq T m = false) :
    meltLoop heat mt eq (fuel + 1) T m = .ok (m, 0) := by
  rw [meltLoop, h]; rfl

theorem meltLoop_succ_go (heat : List K → Except PyErr (List K)) (mt eq : K) (fuel : Nat)
    (T : List K) (m : List Bool) (h : keepHeating mt eq T m = true) (r : List Bool × Nat)
    (hr : meltLoop heat mt eq (fuel + 1) T m = .ok r) :
    ∃ T' m' i, heat T = .ok T' ∧
      meltLoop heat mt eq fuel T' (markMelted mt T' m) = .ok (m', i) ∧ r = (m', i + 1) := by
  rw [meltLoop, h] at hr
  simp only [if_true] at hr
  cases hT : heat T with
  | error e => rw [hT] at hr; cases hr
  | ok T' =>
    rw [hT] at hr
    simp only [] at hr
    cases hL : meltLoop heat mt eq fuel T' (markMelted mt T' m) with
    | error e => rw [hL] at hr; cases hr
    | ok p =>
      rw [hL] at hr
      obtain ⟨m', i⟩ := p
      cases hr
      exact ⟨T', m', i, rfl, hL, rfl⟩

/-- The state of the loop: the temperatures visited, when it goes on, and what has melted. -/
theorem meltLoop_trace (heat : List K → Except PyErr (List K)) (mt eq : K)
    (hlen : ∀ T T', heat T = .ok T' → T'.length = T.length) :
    ∀ (fuel : Nat) (T : List K) (m : List Bool), T.length = m.length → ∀ (r : List Bool × Nat),
    meltLoop heat mt eq fuel T m = .ok r →
    ∃ (temps : Nat → List K) (mel : Nat → List Bool), temps 0 = T ∧ mel 0 = m ∧ mel r.2 = r.1 ∧
      r.2 ≤ fuel ∧ (∀ k, k ≤ r.2 → (temps k).length = m.length ∧ (mel k).length = m.length) ∧
      (∀ k, k < r.2 → keepHeating mt eq (temps k) (mel k) = true ∧
        heat (temps k) = .ok (temps (k + 1)) ∧ mel (k + 1) = markMelted mt (temps (k + 1)) (mel k)) ∧
      (r.2 < fuel → keepHeating mt eq (temps r.2) (mel r.2) = false)
  | 0, T, m, hm, r, h => by
    cases h
    exact ⟨fun _ => T, fun _ => m, rfl, rfl, rfl, le_rfl, fun _ _ => ⟨hm, rfl⟩,
      fun k hk => absurd hk (Nat.not_lt_zero k), fun hk => absurd hk (Nat.not_lt_zero 0)⟩
  | fuel + 1, T, m, hm, r, h => by
    cases hk : keepHeating mt eq T m with
    | false =>
      rw [meltLoop_succ_stop heat mt eq fuel T m hk] at h
      cases h
      exact ⟨fun _ => T, fun _ => m, rfl, rfl, rfl, Nat.zero_le _, fun _ _ => ⟨hm, rfl⟩,
        fun k hk => absurd hk (Nat.not_lt_zero k), fun _ => hk⟩
    | true =>
      obtain ⟨T', m', i, hT, hL, rfl⟩ := meltLoop_succ_go heat mt eq fuel T m hk r h
      have hl' : (markMelted mt T' m).length = m.length := by
        unfold markMelted; simp [hlen T T' hT, hm]
      obtain ⟨temps, mel, h0, h1, h2, h3, h4, h5, h6⟩ := meltLoop_trace heat mt eq hlen fuel T'
        (markMelted mt T' m) (by rw [hl', hlen T T' hT, hm]) (m', i) hL
      refine ⟨fun k => if k = 0 then T else temps (k - 1), fun k => if k = 0 then m else mel (k - 1),
        rfl, rfl, ?_, ?_, ?_, ?_, ?_⟩
      · simpa using h2
      · simp only at h3 ⊢; omega
      · intro k hk2
        rcases Nat.eq_zero_or_pos k with rfl | hp
        · simp [hm]
        · simp only [Nat.ne_of_gt hp, if_false]
          have := h4 (k - 1) (by simp only at hk2 ⊢; omega)
          rw [hl'] at this
          exact this
      · intro k hk2
        rcases Nat.eq_zero_or_pos k with rfl | hp
        · simp [hk, h0, h1, hT]
        · obtain ⟨j, rfl⟩ : ∃ j, k = j + 1 := ⟨k - 1, by omega⟩
          simpa using h5 j (by simp only at hk2 ⊢; omega)
      · intro hlt
        simpa using h6 (by simp only at hlt ⊢; omega)

theorem markMelted_getElem (mt : K) (T : List K) (m : List Bool) (i : Nat) (t : K) (b : Bool)
    (ht : T[i]? = some t) (hb : m[i]? = some b) :
    (markMelted mt T m)[i]? = some (b || decide (mt ≤ t)) := by
  unfold markMelted
  rw [List.getElem?_zipWith, ht, hb]

/-- With a heat step that never fails on the states it meets, the loop never fails. -/
theorem meltLoop_ok (heat : List K → Except PyErr (List K)) (mt eq : K) (P : List K → Prop)
    (hP : ∀ T m, P T → keepHeating mt eq T m = true → ∃ T', heat T = .ok T' ∧ P T') :
    ∀ (fuel : Nat) (T : List K) (m : List Bool), P T →
      ∃ r, meltLoop heat mt eq fuel T m = .ok r
  | 0, T, m, _ => ⟨_, rfl⟩
  | fuel + 1, T, m, h => by
    cases hk : keepHeating mt eq T m with
    | false => exact ⟨_, meltLoop_succ_stop heat mt eq fuel T m hk⟩
    | true =>
      obtain ⟨T', hT, hT'⟩ := hP T m h hk
      obtain ⟨r, hr⟩ := meltLoop_ok heat mt eq P hP fuel T' (markMelted mt T' m) hT'
      rw [meltLoop, hk]
      simp only [if_true, hT, hr]
      exact ⟨_, rfl⟩

/-! ## The pool -/

theorem mapM_error_iff {α β : Type} (f : α → Except PyErr β) : ∀ (l : List α),
    (∃ e, l.mapM f = .error e) ↔ ∃ a ∈ l, ∃ e, f a = .error e
  | [] => by
    constructor
    · rintro ⟨e, h⟩; cases h
    · rintro ⟨a, h, _⟩; cases h
  | a :: l => by
    have ih := mapM_error_iff f l
    rw [List.mapM_cons]
    cases ha : f a with
    | error e =>
      exact ⟨fun _ => ⟨a, by simp, e, ha⟩, fun _ => ⟨e, rfl⟩⟩
    | ok b =>
      cases hl : l.mapM f with
      | error e =>
        obtain ⟨x, hx, hxe⟩ := ih.mp ⟨e, hl⟩
        exact ⟨fun _ => ⟨x, by simp [hx], hxe⟩, fun _ => ⟨e, rfl⟩⟩
      | ok m =>
        constructor
        · rintro ⟨e, h⟩; cases h
        · rintro ⟨x, hx, e, hxe⟩
          rcases List.mem_cons.mp hx with rfl | hx
          · rw [ha] at hxe; cases hxe
          · obtain ⟨e', h⟩ := ih.mpr ⟨x, hx, e, hxe⟩
            rw [hl] at h; cases h

theorem mapM_drop_take {α β : Type} (f : α → Except PyErr β) (l : List α) (m : List β)
    (h : l.mapM f = .ok m) (a b : Nat) :
    ((l.drop a).take b).mapM f = .ok ((m.drop a).take b) := by
  obtain ⟨hl, hi⟩ := mapM_ok_inv f l m h
  obtain ⟨m', hm', hl', hi'⟩ := mapM_ok f ((l.drop a).take b) (by
    intro x hx
    obtain ⟨i, hx⟩ := List.mem_iff_getElem?.mp (List.mem_of_mem_drop (List.mem_of_mem_take hx))
    obtain ⟨y, _, hy⟩ := hi i x hx
    exact ⟨y, hy⟩)
  rw [hm']
  congr 1
  apply List.ext_getElem?
  intro i
  by_cases hlt : i < ((l.drop a).take b).length
  · obtain ⟨y, hy, hfy⟩ := hi' i _ (List.getElem?_eq_getElem hlt)
    have hb : i < b := by simp at hlt; omega
    have hx : l[a + i]? = some ((l.drop a).take b)[i] := by
      rw [← List.getElem?_eq_getElem hlt, List.getElem?_take, if_pos hb, List.getElem?_drop]
    obtain ⟨z, hz, hfz⟩ := hi _ _ hx
    rw [hfy] at hfz
    cases hfz
    rw [hy, List.getElem?_take, if_pos hb, List.getElem?_drop, hz]
  · rw [List.getElem?_eq_none (by omega), List.getElem?_eq_none]
    simp at hlt ⊢; omega

theorem storeChunk_getElem {β : Type} (buf : List (Option β)) (i s : Nat) (full : List β)
    (hl : buf.length = full.length) (p : Nat) (hs : 0 < s) :
    (storeChunk buf i s ((full.drop (i * s)).take s)).length = full.length ∧
    (storeChunk buf i s ((full.drop (i * s)).take s))[p]? =
      if p / s = i then (full[p]?).map some else buf[p]? := by
  unfold storeChunk
  rcases Nat.lt_or_ge (i * s) full.length with hin | hout
  · have hlen : ((full.drop (i * s)).take s).length = min s (full.length - i * s) := by simp
    constructor
    · simp; omega
    · by_cases h1 : p < i * s
      · have : p / s ≠ i := by
          intro h; have := (Nat.div_lt_iff_lt_mul hs).mpr h1; omega
        rw [if_neg this, List.append_assoc, List.getElem?_append_left (by simp; omega),
          List.getElem?_take, if_pos h1]
      · rw [List.append_assoc, List.getElem?_append_right (by simp; omega)]
        have htl : (List.take (i * s) buf).length = i * s := by simp; omega
        rw [htl]
        by_cases h2 : p < i * s + s
        · have hd : p / s = i := by
            apply Nat.div_eq_of_lt_le (by omega)
            rw [Nat.add_mul]; omega
          rw [if_pos hd]
          by_cases h3 : p < full.length
          · rw [List.getElem?_append_left (by simp; omega), List.getElem?_map, List.getElem?_take,
              if_pos (by omega), List.getElem?_drop, show i * s + (p - i * s) = p by omega]
          · rw [List.getElem?_append_right (by simp; omega), List.getElem?_drop,
              List.getElem?_eq_none (by simp; omega), List.getElem?_eq_none (by omega)]
            rfl
        · have hd : p / s ≠ i := by
            intro h
            have := Nat.lt_div_mul_add (a := p) hs
            rw [h] at this; omega
          rw [if_neg hd, List.getElem?_append_right (by simp; omega), List.getElem?_drop]
          by_cases h3 : p < full.length
          · congr 1; simp; omega
          · rw [List.getElem?_eq_none (by simp; omega), List.getElem?_eq_none (by omega)]
  · have e : (full.drop (i * s)).take s = [] := by
      rw [List.drop_eq_nil_of_le hout]; simp
    rw [e]
    constructor
    · simp; omega
    · simp only [List.map_nil, List.append_nil, List.length_nil, Nat.add_zero]
      rw [List.take_append_drop]
      split
      · rename_i h
        have : i * s ≤ p := by
          rw [← h]; exact Nat.div_mul_le_self p s
        rw [List.getElem?_eq_none (by omega), List.getElem?_eq_none (by omega)]; rfl
      · rfl

/-- When no task fails, each finished chunk fills its own places, in any order. -/
theorem collectChunks_ok {α β : Type} (f : α → Except PyErr β) (args : List α) (full : List β)
    (hf : args.mapM f = .ok full) (s : Nat) (hs : 0 < s) :
    ∀ (order : List Nat) (buf : List (Option β)), buf.length = full.length →
    ∃ buf', collectChunks f args s order buf none = (buf', none) ∧ buf'.length = full.length ∧
      ∀ p, buf'[p]? = if p / s ∈ order then (full[p]?).map some else buf[p]?
  | [], buf, hb => ⟨buf, rfl, hb, fun p => by simp⟩
  | i :: order, buf, hb => by
    have hr : runChunk f args s i = .ok ((full.drop (i * s)).take s) :=
      mapM_drop_take f args full hf (i * s) s
    obtain ⟨buf', h1, h2, h3⟩ := collectChunks_ok f args full hf s hs order
      (storeChunk buf i s ((full.drop (i * s)).take s))
      (storeChunk_getElem buf i s full hb 0 hs).1
    refine ⟨buf', ?_, h2, ?_⟩
    · rw [collectChunks, hr]; exact h1
    · intro p
      rw [h3 p, (storeChunk_getElem buf i s full hb p hs).2]
      by_cases h : p / s ∈ order
      · simp [h]
      · by_cases h' : p / s = i
        · simp [h']
        · simp [h, h']

theorem collectChunks_err {α β : Type} (f : α → Except PyErr β) (args : List α) (s : Nat) :
    ∀ (order : List Nat) (buf : List (Option β)) (err : Option PyErr),
    (∃ e, (collectChunks f args s order buf err).2 = some e) ↔
      (∃ e, err = some e) ∨ ∃ i ∈ order, ∃ e, runChunk f args s i = .error e
  | [], buf, err => by simp [collectChunks]
  | i :: order, buf, err => by
    rw [collectChunks]
    cases hr : runChunk f args s i with
    | ok res =>
      simp only []
      rw [collectChunks_err f args s order]
      simp [hr]
    | error e =>
      simp only []
      rw [collectChunks_err f args s order]
      constructor
      · intro _; exact Or.inr ⟨i, by simp, e, hr⟩
      · intro _; left; cases err <;> simp

end MoonPIES
