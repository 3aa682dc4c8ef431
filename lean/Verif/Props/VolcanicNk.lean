import Verif.Props.Volcanic

/-!
# C46: where the tabulated volcanic masses would go

The body of `volcanic_ice_nk`, which is never reached (`C46_refuted`).
-/

namespace MoonPIES

variable {K : Type} [Field K] [LinearOrder K] [IsStrictOrderedRing K]

/-- One pass of the loop on an even grid. -/
theorem nkLoop_step (time : List K) (ts t0 : K) (hts : 0 < ts)
    (hgrid : ∀ (k : Nat) t, time[k]? = some t → t = t0 - ts * k) {i j : Nat} {m m' : K}
    (hij : i < j) (hj : j < time.length) (l : List (Nat × K)) (acc : List K) :
    nkLoop time ts ((i, m) :: (j, m') :: l) acc =
      nkLoop time ts ((j, m') :: l) (setRange acc i j (m / ((j : K) - i))) := by
  have hil : i < time.length := by omega
  have hji : (0 : K) < (j : K) - i := by
    have : (i : K) < j := by exact_mod_cast hij
    linarith
  have hti := hgrid i _ (List.getElem?_eq_getElem hil)
  have htj := hgrid j _ (List.getElem?_eq_getElem hj)
  have gi : pyGet time i = .ok (time[i]) := by unfold pyGet; rw [List.getElem?_eq_getElem hil]
  have gj : pyGet time j = .ok (time[j]) := by unfold pyGet; rw [List.getElem?_eq_getElem hj]
  have hdt : (time[i] - time[j]) / ts = (j : K) - i := by
    rw [hti, htj]; field_simp; ring
  rw [nkLoop, gi]
  simp only [bind, Except.bind]
  rw [gj]
  simp only []
  rw [hdt, if_neg hji.ne']

/-- Values written by the loop. -/
theorem nkLoop_values (time : List K) (ts t0 : K) (hts : 0 < ts)
    (hgrid : ∀ (k : Nat) t, time[k]? = some t → t = t0 - ts * k) :
    ∀ (l : List (Nat × K)) (i : Nat) (m : K) (acc out : List K),
      ((i, m) :: l).Pairwise (fun a b => a.1 < b.1) → (∀ p ∈ (i, m) :: l, p.1 < time.length) →
      acc.length = time.length → nkLoop time ts ((i, m) :: l) acc = .ok out →
      (∀ k, k < i → out[k]? = acc[k]?) ∧
      ∀ (p : Nat) a b x y, ((i, m) :: l)[p]? = some (a, x) → ((i, m) :: l)[p + 1]? = some (b, y) →
        ∀ k, a ≤ k → k < b → out[k]? = some (x / ((b : K) - a)) := by
  intro l
  induction l with
  | nil =>
    intro i m acc out _ _ _ h
    injection h with h
    subst h
    exact ⟨fun _ _ => rfl, fun p a b x y _ h2 => by simp at h2⟩
  | cons q l ih =>
    obtain ⟨j, m'⟩ := q
    intro i m acc out hp hb hal h
    have hij : i < j := (List.pairwise_cons.1 hp).1 (j, m') (by simp)
    have hjl : j < time.length := hb (j, m') (by simp)
    rw [nkLoop_step time ts t0 hts hgrid hij hjl] at h
    obtain ⟨i1, i2⟩ := ih j m' _ out (List.pairwise_cons.1 hp).2
      (fun p hp => hb p (List.mem_cons_of_mem _ hp)) (by rw [setRange_length, hal]) h
    constructor
    · intro k hk
      rw [i1 k (by omega), setRange_get, List.getElem?_eq_getElem (show k < acc.length by omega)]
      simp only [Option.map_some, Option.some.injEq]
      rw [if_neg (by omega)]
    · intro p a b x y h1 h2 k hak hkb
      cases p with
      | zero =>
        simp only [List.getElem?_cons_zero, List.getElem?_cons_succ, Option.some.injEq, Prod.mk.injEq] at h1 h2
        obtain ⟨rfl, rfl⟩ := h1
        obtain ⟨rfl, rfl⟩ := h2
        rw [i1 k hkb, setRange_get, List.getElem?_eq_getElem (show k < acc.length by omega)]
        simp only [Option.map_some, Option.some.injEq]
        rw [if_pos (by omega)]
      | succ p =>
        rw [List.getElem?_cons_succ] at h1 h2
        exact i2 p a b x y h1 h2 k hak hkb

theorem grid_index (ts : K) (hts : 0 < ts) (rint : K → K) (hr : ∀ n : ℤ, rint (n : K) = n) (N : Nat)
    (time : List K) (hgrid : ∀ (k : Nat) t, time[k]? = some t → t = ts * ((N : K) - k)) (i : Nat)
    (hi : i < time.length) :
    (time.filter (fun t => decide (rint (ts * ((N : K) - i) / ts) < rint (t / ts)))).length = i := by
  have hround : ∀ k : Nat, rint (ts * ((N : K) - k) / ts) = (N : K) - k := by
    intro k
    rw [mul_div_cancel_left₀ _ hts.ne']
    have := hr ((N : ℤ) - k)
    push_cast at this
    exact this
  have hsplit : time = time.take i ++ time.drop i := (List.take_append_drop i time).symm
  rw [hsplit, List.filter_append, List.filter_eq_self.2, List.filter_eq_nil_iff.2]
  · simp; omega
  · intro t ht
    obtain ⟨k, hk⟩ := List.mem_iff_getElem?.1 ht
    rw [List.getElem?_drop] at hk
    rw [hgrid _ t hk, hround, hround, decide_eq_true_eq, not_lt]
    push_cast
    have : (0 : K) ≤ k := Nat.cast_nonneg k
    linarith
  · intro t ht
    obtain ⟨k, hk⟩ := List.mem_iff_getElem?.1 ht
    rw [List.getElem?_take] at hk
    split at hk
    · rename_i hlt
      rw [hgrid _ t hk, hround, hround, decide_eq_true_eq]
      have : (k : K) < i := by exact_mod_cast hlt
      linarith
    · cases hk

/-- **C46** partial: were the attribute present, on the grid of model times `ts * N`, `ts * (N - 1)`, ...
with table entries at model times (`rows`, by index) after entries older than the model (`old`), each mass
would be spread evenly from its time up to that of the next entry; before the first there is nothing, and
older entries count for nothing.  (Missing: conservation, as in `C46_loop_partial`.) -/
theorem C46_body_partial (ts tol : K) (hts : 0 < ts) (htol : 0 < tol) (rint : K → K)
    (hr : ∀ n : ℤ, rint (n : K) = n) (N : Nat) (hN : 0 < N) (time : List K)
    (hgrid : ∀ (k : Nat) t, time[k]? = some t → t = ts * ((N : K) - k)) (old : List (K × K))
    (hold : ∀ r ∈ old, ts * N + ts * N * tol ≤ r.1) (i : Nat) (m : K) (l : List (Nat × K))
    (hp : ((i, m) :: l).Pairwise (fun a b => a.1 < b.1)) (hb : ∀ p ∈ (i, m) :: l, p.1 < time.length)
    (hl : l ≠ []) :
    ∃ out, volcanicNkBody rint tol ts time
        (old ++ ((i, m) :: l).map (fun r => (ts * ((N : K) - r.1), r.2))) = .ok out ∧
      out.length = time.length ∧ out.sum = spreadMass ((i, m) :: l) + lastExtra ((i, m) :: l) ∧
      (∀ k, k < i → out[k]? = some 0) ∧
      ∀ (p : Nat) a b x y, ((i, m) :: l)[p]? = some (a, x) → ((i, m) :: l)[p + 1]? = some (b, y) →
        ∀ k, a ≤ k → k < b → out[k]? = some (x / ((b : K) - a)) := by
  have hlen : 0 < time.length := by have := hb (i, m) (by simp); omega
  have hgrid' : ∀ (k : Nat) t, time[k]? = some t → t = ts * N - ts * k := by
    intro k t h; rw [hgrid k t h]; ring
  have hNp : (0 : K) < ts * N := mul_pos hts (by exact_mod_cast hN)
  -- the greatest time is the first
  have hmax : ∃ t rest, time = t :: rest ∧ rest.foldl max t = ts * N := by
    cases htime : time with
    | nil => rw [htime] at hlen; simp at hlen
    | cons t rest =>
      refine ⟨t, rest, rfl, ?_⟩
      have h0 : t = ts * N := by
        have := hgrid' 0 t (by rw [htime]; rfl)
        simpa using this
      have hle : ∀ x ∈ rest, x ≤ ts * N := by
        intro x hx
        obtain ⟨k, hk⟩ := List.mem_iff_getElem?.1 hx
        have := hgrid' (k + 1) x (by rw [htime]; exact hk)
        rw [this]
        have : 0 ≤ ts * ((k + 1 : ℕ) : K) := mul_nonneg hts.le (Nat.cast_nonneg _)
        linarith
      rw [h0]
      clear htime
      induction rest with
      | nil => rfl
      | cons a rest ih =>
        rw [List.foldl_cons, max_eq_left (hle a (by simp))]
        exact ih (fun x hx => hle x (by simp [hx]))
  obtain ⟨t, rest, htime, hfold⟩ := hmax
  have hbody : volcanicNkBody rint tol ts time
      (old ++ ((i, m) :: l).map (fun r => (ts * ((N : K) - r.1), r.2))) =
      nkLoop time ts ((i, m) :: l) (time.map (fun _ => 0)) := by
    have hfil : (old ++ ((i, m) :: l).map (fun r => (ts * ((N : K) - r.1), r.2))).filter
        (fun r => decide (r.1 < ts * N + rtolOf tol (ts * N))) =
        ((i, m) :: l).map (fun r => (ts * ((N : K) - r.1), r.2)) := by
      rw [List.filter_append, List.filter_eq_nil_iff.2, List.filter_eq_self.2, List.nil_append]
      · intro r hr'
        obtain ⟨q, -, rfl⟩ := List.mem_map.1 hr'
        rw [decide_eq_true_eq]
        unfold rtolOf
        rw [abs_of_pos hNp]
        have h1 : 0 < ts * N * tol := mul_pos hNp htol
        have h2 : 0 ≤ ts * (q.1 : K) := mul_nonneg hts.le (Nat.cast_nonneg _)
        simp only []
        rw [mul_sub]
        linarith
      · intro r hr'
        rw [decide_eq_true_eq, not_lt]
        unfold rtolOf
        rw [abs_of_pos hNp]
        exact hold r hr'
    have hidx : (((i, m) :: l).map (fun r => (ts * ((N : K) - r.1), r.2))).map (fun r : K × K =>
        ((time.filter (fun t => decide (rint (r.1 / ts) < rint (t / ts)))).length, r.2)) = (i, m) :: l := by
      rw [List.map_map]
      conv_rhs => rw [← List.map_id ((i, m) :: l)]
      apply List.map_congr_left
      intro q hq
      simp only [Function.comp, id]
      rw [grid_index ts hts rint hr N time hgrid q.1 (hb q hq)]
    unfold volcanicNkBody
    rw [htime]
    simp only [bind, Except.bind]
    rw [← htime, hfold, hfil, hidx]
  rw [hbody]
  obtain ⟨out, o1, o2, o3⟩ := C46_loop_partial time ts (ts * N) hts hgrid' l i m (time.map (fun _ => 0)) hp hb
    hl (by simp) (by
      intro k x _ hx
      rw [List.getElem?_map] at hx
      cases ht : time[k]? with
      | none => rw [ht] at hx; cases hx
      | some y => rw [ht] at hx; injection hx with hx; exact hx.symm)
  obtain ⟨v1, v2⟩ := nkLoop_values time ts (ts * N) hts hgrid' l i m _ out hp hb (by simp) o1
  refine ⟨out, o1, o2, ?_, ?_, v2⟩
  · rw [o3]
    have : ((time.map (fun _ => (0 : K))).take i).sum = 0 := by
      apply List.sum_eq_zero
      intro x hx
      obtain ⟨y, -, rfl⟩ := List.mem_map.1 (List.mem_of_mem_take hx)
      rfl
    rw [this, zero_add]
  · intro k hk
    have hil : i < time.length := hb (i, m) (by simp)
    rw [v1 k hk, List.getElem?_map, List.getElem?_eq_getElem (by omega)]
    rfl

/-- Seven model times; an entry older than the model counts for nothing. -/
example : volcanicNkBody (fun x : ℚ => ((⌊x + 1 / 2⌋ : ℤ) : ℚ)) (1 / 1000000) 10
    ([70, 60, 50, 40, 30, 20, 10] : List ℚ) [(80, 5), (60, 12), (40, 6), (10, 100)] =
      .ok [0, 6, 6, 2, 2, 2, 2] ∧
    (∀ (k : Nat) t, ([70, 60, 50, 40, 30, 20, 10] : List ℚ)[k]? = some t → t = 10 * ((7 : Nat) - k)) ∧
    ∀ n : ℤ, ((⌊(n : ℚ) + 1 / 2⌋ : ℤ) : ℚ) = n := by
  refine ⟨by decide +kernel, ?_, ?_⟩
  · intro k t h
    match k, h with
    | 0, h => injection h with h; rw [← h]; norm_num
    | 1, h => injection h with h; rw [← h]; norm_num
    | 2, h => injection h with h; rw [← h]; norm_num
    | 3, h => injection h with h; rw [← h]; norm_num
    | 4, h => injection h with h; rw [← h]; norm_num
    | 5, h => injection h with h; rw [← h]; norm_num
    | 6, h => injection h with h; rw [← h]; norm_num
    | k + 7, h => simp at h
  · intro n
    have : ⌊(n : ℚ) + 1 / 2⌋ = n := by
      rw [Int.floor_eq_iff]; constructor <;> linarith
    rw [this]

end MoonPIES
