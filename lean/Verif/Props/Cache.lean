import Verif.Model.Cache

/-!
# C61: memoisation never changes results
-/

namespace MoonPIES

variable {κ β : Type}

/-- Equal keys give equal results. -/
def Spec.RespectsKey (m : Memo κ β) : Prop := ∀ k k', m.eq k k' = true → m.body k = m.body k'

/-- What an entry must say: the value the body gives for its key. -/
def Correct (m : Memo κ β) (es : Entries κ β) : Prop := ∀ e ∈ es, m.body e.1 = .ok e.2

/-- The cache is within its bound. -/
def Within (m : Memo κ β) (es : Entries κ β) : Prop := ∀ n, m.maxsize = some n → es.length ≤ n

theorem takeOut_some {eq : κ → κ → Bool} {k : κ} : ∀ {es : Entries κ β} {e : κ × β} {rest : Entries κ β},
    takeOut eq k es = some (e, rest) →
      eq e.1 k = true ∧ ∃ a b, es = a ++ e :: b ∧ rest = a ++ b ∧ ∀ x ∈ a, eq x.1 k = false := by
  intro es
  induction es with
  | nil => intro e rest h; cases h
  | cons x es ih =>
    intro e rest h
    unfold takeOut at h
    split at h
    · rename_i hx
      simp only [Option.some.injEq, Prod.mk.injEq] at h
      obtain ⟨rfl, rfl⟩ := h
      exact ⟨hx, [], es, rfl, rfl, by simp⟩
    · rename_i hx
      cases hr : takeOut eq k es with
      | none => rw [hr] at h; cases h
      | some r =>
        rw [hr] at h
        simp only [Option.map_some, Option.some.injEq, Prod.mk.injEq] at h
        obtain ⟨h1, h2⟩ := h
        obtain ⟨g1, a, b, g2, g3, g4⟩ := ih (e := r.1) (rest := r.2) hr
        subst h1
        refine ⟨g1, x :: a, b, by rw [g2]; rfl, by rw [← h2, g3]; rfl, ?_⟩
        intro y hy
        rcases List.mem_cons.1 hy with rfl | hy
        · simpa using hx
        · exact g4 y hy

theorem takeOut_none {eq : κ → κ → Bool} {k : κ} : ∀ {es : Entries κ β},
    takeOut eq k es = none → ∀ x ∈ es, eq x.1 k = false := by
  intro es
  induction es with
  | nil => intro _ x hx; simp at hx
  | cons y es ih =>
    intro h x hx
    unfold takeOut at h
    split at h
    · cases h
    · rename_i hy
      cases hr : takeOut eq k es with
      | some r => rw [hr] at h; cases h
      | none =>
        rcases List.mem_cons.1 hx with rfl | hx
        · simpa using hy
        · exact ih hr x hx

/-- One call: the undecorated result, and a cache that stays correct and within bounds. -/
theorem call_ok (m : Memo κ β) (hm : Spec.RespectsKey m) (es : Entries κ β) (k : κ)
    (hc : Correct m es) (hw : Within m es) (hk : m.hashable k = true) :
    (m.call es k).2.1 = m.body k ∧ Correct m (m.call es k).1 ∧ Within m (m.call es k).1 := by
  unfold Memo.call
  split
  · exact ⟨rfl, hc, hw⟩
  · rename_i h0
    rw [hk]
    simp only [Bool.true_eq_false, if_false]
    cases ht : takeOut m.eq k es with
    | some r =>
      obtain ⟨e, rest⟩ := r
      obtain ⟨h1, a, b, h2, h3, -⟩ := takeOut_some ht
      simp only []
      refine ⟨?_, ?_, ?_⟩
      · rw [← hm _ _ h1, hc e (by rw [h2]; simp)]
      · intro x hx
        apply hc
        rw [h2]
        rw [h3] at hx
        simp only [List.mem_cons, List.mem_append] at hx ⊢
        rcases hx with h | h | h
        · exact Or.inr (Or.inl h)
        · exact Or.inl h
        · exact Or.inr (Or.inr h)
      · intro n hn
        have := hw n hn
        rw [h2] at this
        rw [h3]
        simp only [List.length_cons, List.length_append] at this ⊢
        omega
    | none =>
      simp only []
      cases hb : m.body k with
      | error e => exact ⟨rfl, hc, hw⟩
      | ok v =>
        simp only []
        cases hx : m.maxsize with
        | none =>
          refine ⟨rfl, ?_, ?_⟩
          · intro x hx
            rcases List.mem_cons.1 hx with rfl | hx
            · exact hb
            · exact hc x hx
          · intro n hn; rw [hx] at hn; cases hn
        | some n =>
          simp only []
          have hn0 : n ≠ 0 := by rintro rfl; exact h0 hx
          split
          · rename_i hlt
            refine ⟨rfl, ?_, ?_⟩
            · intro x hx
              rcases List.mem_cons.1 hx with rfl | hx
              · exact hb
              · exact hc x hx
            · intro n' hn'
              rw [hx] at hn'
              cases hn'
              exact hlt
          · rename_i hlt
            refine ⟨rfl, ?_, ?_⟩
            · intro x hx
              rcases List.mem_cons.1 hx with rfl | hx
              · exact hb
              · exact hc x (List.dropLast_subset _ hx)
            · intro n' hn'
              rw [hx] at hn'
              cases hn'
              have := hw n hx
              simp only [List.length_cons, List.length_dropLast]
              omega

variable {ι : Type} [DecidableEq ι] {κs βs : ι → Type}

/-- What the program without caches would return. -/
def Spec.plain (m : Memos ι κs βs) : CacheOp ι κs → Option (Σ i, Except PyErr (βs i))
  | .clear => none
  | .call i k => some ⟨i, (m.fn i).body k⟩

/-- All keys used can be hashed. -/
def Spec.Hashable (m : Memos ι κs βs) : CacheOp ι κs → Prop
  | .clear => True
  | .call i k => (m.fn i).hashable k = true

theorem run_ok (m : Memos ι κs βs) (hm : ∀ i, Spec.RespectsKey (m.fn i)) :
    ∀ (ops : List (CacheOp ι κs)) (c : ∀ i, Entries (κs i) (βs i)),
    (∀ i, Correct (m.fn i) (c i)) → (∀ i, Within (m.fn i) (c i)) → (∀ op ∈ ops, Spec.Hashable m op) →
    (m.run c ops).2 = ops.map (Spec.plain m) ∧ (∀ i, Correct (m.fn i) ((m.run c ops).1 i)) ∧
      ∀ i, Within (m.fn i) ((m.run c ops).1 i) := by
  intro ops
  induction ops with
  | nil => intro c h1 h2 _; exact ⟨rfl, h1, h2⟩
  | cons op ops ih =>
    intro c h1 h2 h3
    have hs : (m.step c op).2 = Spec.plain m op ∧ (∀ i, Correct (m.fn i) ((m.step c op).1 i)) ∧
        ∀ i, Within (m.fn i) ((m.step c op).1 i) := by
      cases op with
      | clear =>
        exact ⟨rfl, fun i e he => (by cases he), fun i n _ => Nat.zero_le _⟩
      | call i k =>
        obtain ⟨g1, g2, g3⟩ := call_ok (m.fn i) (hm i) (c i) k (h1 i) (h2 i)
          (h3 _ List.mem_cons_self)
        refine ⟨?_, ?_, ?_⟩
        · show some (⟨i, ((m.fn i).call (c i) k).2.1⟩ : Σ i, Except PyErr (βs i)) = some ⟨i, (m.fn i).body k⟩
          rw [g1]
        · intro j
          show Correct (m.fn j) (if h : j = i then h ▸ ((m.fn i).call (c i) k).1 else c j)
          by_cases h : j = i
          · subst h; simpa using g2
          · simpa [h] using h1 j
        · intro j
          show Within (m.fn j) (if h : j = i then h ▸ ((m.fn i).call (c i) k).1 else c j)
          by_cases h : j = i
          · subst h; simpa using g3
          · simpa [h] using h2 j
    obtain ⟨g1, g2, g3⟩ := ih (m.step c op).1 hs.2.1 hs.2.2
      (fun o ho => h3 o (List.mem_cons_of_mem _ ho))
    refine ⟨?_, g2, g3⟩
    show (m.step c op).2 :: (m.run (m.step c op).1 ops).2 = _
    rw [hs.1, g1]; rfl

/-- **C61** for every set of decorated functions, every `maxsize` and every sequence of calls and
cache clears, each call returns (or raises) what the undecorated function would, provided equal
keys give equal results. -/
theorem C61_transparent (m : Memos ι κs βs) (hm : ∀ i, Spec.RespectsKey (m.fn i))
    (ops : List (CacheOp ι κs)) (h : ∀ op ∈ ops, Spec.Hashable m op) :
    (m.run (fun _ => []) ops).2 = ops.map (Spec.plain m) :=
  (run_ok m hm ops _ (fun _ e he => (by cases he)) (fun _ _ _ => Nat.zero_le _) h).1

/-- **C61** at most `maxsize` entries are ever kept. -/
theorem C61_bounded (m : Memos ι κs βs) (hm : ∀ i, Spec.RespectsKey (m.fn i))
    (ops : List (CacheOp ι κs)) (h : ∀ op ∈ ops, Spec.Hashable m op) (i : ι) (n : Nat)
    (hn : (m.fn i).maxsize = some n) : ((m.run (fun _ => []) ops).1 i).length ≤ n :=
  (run_ok m hm ops _ (fun _ e he => (by cases he)) (fun _ _ _ => Nat.zero_le _) h).2.2 i n hn

/-! ## Which keys are kept -/

/-- Keys from the most to the least recently used one, without repetitions. -/
def Spec.recency [DecidableEq κ] (calls : List κ) : List κ :=
  calls.foldl (fun r k => k :: r.erase k) []

/-- The keys of calls that return a value, since the last clear (`none` is a clear). -/
def Spec.sinceClear (ok : κ → Bool) (ops : List (Option κ)) : List κ :=
  ops.foldl (fun acc op => match op with
    | none => []
    | some k => if ok k then acc ++ [k] else acc) []

/-- Contents of one cache after calls (`some`) and clears (`none`). -/
def Memo.after (m : Memo κ β) (ops : List (Option κ)) : Entries κ β :=
  ops.foldl (fun es op => match op with
    | none => []
    | some k => (m.call es k).1) []

theorem take_erase_notin [DecidableEq κ] (k : κ) : ∀ (n : Nat) (r : List κ), k ∉ r.take (n + 1) →
    (r.erase k).take n = r.take n := by
  intro n
  induction n with
  | zero => intro r _; simp
  | succ n ih =>
    intro r h
    cases r with
    | nil => rfl
    | cons x r =>
      rw [List.take_succ_cons, List.mem_cons, not_or] at h
      rw [List.erase_cons_tail (by simpa using fun e => h.1 e.symm), List.take_succ_cons, List.take_succ_cons,
        ih r h.2]

theorem take_erase_mem [DecidableEq κ] (k : κ) : ∀ (n : Nat) (r : List κ), k ∈ r.take (n + 1) →
    (r.take (n + 1)).erase k = (r.erase k).take n := by
  intro n
  induction n with
  | zero =>
    intro r h
    cases r with
    | nil => simp at h
    | cons x r =>
      simp only [List.take_succ_cons, List.take_zero, List.mem_singleton] at h
      subst h
      simp
  | succ n ih =>
    intro r h
    cases r with
    | nil => simp at h
    | cons x r =>
      by_cases hx : x = k
      · subst hx; simp
      · rw [List.take_succ_cons, List.mem_cons] at h
        have h' : k ∈ r.take (n + 1) := by
          rcases h with h | h
          · exact absurd h.symm hx
          · exact h
        rw [List.take_succ_cons, List.erase_cons_tail (by simpa using hx),
          List.erase_cons_tail (by simpa using hx), List.take_succ_cons, ih r h']

theorem erase_split [DecidableEq κ] {k : κ} (a b : List κ) (h : k ∉ a) : (a ++ k :: b).erase k = a ++ b := by
  rw [List.erase_append_right _ h, List.erase_cons_head]

/-- **C61** the entries kept are exactly those of the `n` most recently used keys since the last
clear: a full cache only ever loses the key that was not used for longest. -/
theorem C61_recent [DecidableEq κ] (m : Memo κ β) (n : Nat) (hn : m.maxsize = some (n + 1))
    (heq : ∀ k k', m.eq k k' = true ↔ k = k') (hh : ∀ k, m.hashable k = true)
    (ops : List (Option κ)) :
    (m.after ops).map (·.1) =
      (Spec.recency (Spec.sinceClear (fun k => (m.body k).isOk) ops)).take (n + 1) := by
  obtain ⟨ok, hok⟩ : ∃ ok : κ → Bool, ok = fun k => (m.body k).isOk := ⟨_, rfl⟩
  rw [← hok]
  -- generalise over the state reached
  have key : ∀ (ops : List (Option κ)) (es : Entries κ β) (acc : List κ),
      es.map (·.1) = (Spec.recency acc).take (n + 1) →
      (∀ x ∈ Spec.recency acc, ok x = true) →
      (ops.foldl (fun es op => match op with
        | none => []
        | some k => (m.call es k).1) es).map (·.1) =
      (Spec.recency (ops.foldl (fun acc op => match op with
        | none => []
        | some k => if ok k then acc ++ [k] else acc) acc)).take (n + 1) := by
    intro ops
    induction ops with
    | nil => intro es acc h _; exact h
    | cons op ops ih =>
      intro es acc h hall
      rw [List.foldl_cons, List.foldl_cons]
      cases op with
      | none => exact ih [] [] rfl (by simp [Spec.recency])
      | some k =>
        have hrec : Spec.recency (acc ++ [k]) = k :: (Spec.recency acc).erase k := by
          unfold Spec.recency
          rw [List.foldl_append]; rfl
        simp only []
        apply ih
        · unfold Memo.call
          rw [hn, if_neg (by simp : ¬ (some (n + 1) = some 0)), hh k]
          simp only [Bool.true_eq_false, if_false]
          cases ht : takeOut m.eq k es with
          | some r =>
            obtain ⟨e, rest⟩ := r
            obtain ⟨h1, a, b, h2, h3, h4⟩ := takeOut_some ht
            have hek : e.1 = k := (heq _ _).1 h1
            have hmem : k ∈ (Spec.recency acc).take (n + 1) := by
              rw [← h, h2]; simp [hek]
            have hka : k ∉ a.map (·.1) := by
              intro hm
              obtain ⟨x, hx, hxk⟩ := List.mem_map.1 hm
              have := h4 x hx
              rw [(heq _ _).2 hxk] at this
              cases this
            have hokk : ok k = true := hall k (List.mem_of_mem_take hmem)
            rw [if_pos hokk, hrec, List.take_succ_cons, ← take_erase_mem k n _ hmem, ← h, h2, h3]
            simp only [List.map_cons, List.map_append, hek]
            rw [erase_split _ _ hka]
          | none =>
            have hno := takeOut_none ht
            have hnm : k ∉ (Spec.recency acc).take (n + 1) := by
              rw [← h]
              intro hm
              obtain ⟨x, hx, hxk⟩ := List.mem_map.1 hm
              have := hno x hx
              rw [(heq _ _).2 hxk] at this
              cases this
            simp only []
            cases hb : m.body k with
            | error e =>
              have : ok k = false := by rw [hok]; simp only [hb]; rfl
              rw [if_neg (by rw [this]; decide)]
              exact h
            | ok v =>
              have : ok k = true := by rw [hok]; simp only [hb]; rfl
              rw [if_pos this, hrec, List.take_succ_cons, take_erase_notin k n _ hnm]
              have hlen : es.length = min (n + 1) (Spec.recency acc).length := by
                have := congrArg List.length h
                simpa using this
              simp only []
              split
              · rename_i hlt
                rw [List.map_cons, h]
                have : (Spec.recency acc).length ≤ n := by omega
                rw [List.take_of_length_le (by omega), List.take_of_length_le this]
              · rename_i hlt
                rw [List.map_cons, List.map_dropLast, h]
                have : n + 1 ≤ (Spec.recency acc).length := by omega
                have e : min (min (n + 1) (Spec.recency acc).length - 1) (n + 1) = n := by omega
                rw [List.dropLast_eq_take, List.length_take, List.take_take, e]
        · intro x hx
          split at hx
          · rename_i hk
            rw [hrec] at hx
            rcases List.mem_cons.1 hx with rfl | hx
            · exact hk
            · exact hall x (List.mem_of_mem_erase hx)
          · exact hall x hx
  exact key ops [] [] rfl (by simp [Spec.recency])

/-- **C61** the body is evaluated exactly when the key is not kept: a repeated call is served from
the cache, and a call that raised is evaluated again. -/
theorem C61_hit (m : Memo κ β) (heq : ∀ k k', m.eq k k' = true ↔ k = k') (es : Entries κ β) (k : κ)
    (h0 : m.maxsize ≠ some 0) (hh : m.hashable k = true) :
    (m.call es k).2.2 = true ↔ k ∉ es.map (·.1) := by
  unfold Memo.call
  rw [if_neg h0, if_neg (by rw [hh]; decide)]
  cases ht : takeOut m.eq k es with
  | some r =>
    obtain ⟨e, rest⟩ := r
    obtain ⟨h1, a, b, h2, -, -⟩ := takeOut_some ht
    simp only [Bool.false_eq_true, false_iff, Classical.not_not]
    rw [h2, ← (heq _ _).1 h1]
    simp
  | none =>
    have hno : k ∉ es.map (·.1) := by
      intro hk
      obtain ⟨x, hx, hxk⟩ := List.mem_map.1 hk
      have := takeOut_none ht x hx
      rw [(heq _ _).2 hxk] at this
      cases this
    simp only []
    refine ⟨fun _ => hno, fun _ => ?_⟩
    split
    · rfl
    · split
      · rfl
      · split <;> rfl

/-- **C61** arguments that cannot be hashed (an array of speeds for `diam2len_prieur`, say) make
the decorated function raise where the undecorated one would not. -/
theorem C61_unhashable (m : Memo κ β) (es : Entries κ β) (k : κ) (h0 : m.maxsize ≠ some 0)
    (hk : m.hashable k = false) : m.call es k = (es, .error .typeError, false) := by
  unfold Memo.call
  rw [if_neg h0, if_pos hk]

/-- The table with a cache of two entries, used in the examples. -/
def memo0 : Memo Nat Nat where
  eq := fun a b => a == b
  hashable := fun _ => true
  body := fun k => if k = 0 then .error .valueError else .ok (k * k)
  maxsize := some 2

example : Spec.RespectsKey memo0 ∧ (∀ k k', memo0.eq k k' = true ↔ k = k') := by
  constructor
  · intro k k' h
    have : k = k' := by simpa [memo0] using h
    rw [this]
  · intro k k'; simp [memo0]

example : memo0.after [some 3, some 4, some 0, some 3, some 5] = [(5, 25), (3, 9)] ∧
    memo0.after [some 3, none, some 4] = [(4, 16)] ∧
    ((memo0.call [(5, 25), (3, 9)] 3).2).2 = false ∧ ((memo0.call [(5, 25), (3, 9)] 4).2).2 = true := by
  decide

end MoonPIES
