import Verif.Props.Records

/-!
# C165: what the length of the timestep does to the erosion of Cannon et al.
-/

namespace MoonPIES

open Spec

section
set_option linter.unusedSectionVars false
variable {K : Type} [Field K] [LinearOrder K] [IsStrictOrderedRing K]

/-- A timestep that brings ice `y`, cut into parts that bring equal shares of it and the ejecta `es`. -/
def cutStep (m : Nat) (y : K) (es : List K) : List (K × K) := es.map fun e => (y / m, e)

theorem balance_append (shield ed : K) (a b : List (K × K)) :
    balance shield ed (a ++ b) = balance shield ed a + balance shield ed b := by
  unfold balance
  rw [List.map_append, List.sum_append, List.filter_append, List.length_append, Nat.cast_add]
  ring

theorem balance_cut (shield ed y : K) (m : Nat) : ∀ es : List K, balance shield (ed / m) (cutStep m y es) =
    (es.length : K) * (y / m) - ed / m * ((es.filter fun e => decide (e ≤ shield)).length : K)
  | [] => by simp [cutStep, balance]
  | e :: es => by
    have ih := balance_cut shield ed y m es
    unfold cutStep at ih ⊢
    rw [List.map_cons, balance_cons, ih]
    by_cases h : e ≤ shield
    · simp [h, keeps]
      ring
    · simp [h, keeps]
      ring

theorem balancesFrom_drop (shield ed : K) (r : List (K × K)) (k : Nat) (hk : k ≤ r.length) :
    balancesFrom shield ed r k = balancesFrom shield ed (r.drop k) 0 := by
  ext x
  unfold balancesFrom
  constructor
  · rintro ⟨j, h1, h2, h3⟩
    refine ⟨j - k, Nat.zero_le _, by rw [List.length_drop]; omega, ?_⟩
    rw [List.drop_drop, h3]
    congr 2
    omega
  · rintro ⟨j, -, h2, h3⟩
    rw [List.length_drop] at h2
    refine ⟨k + j, by omega, by omega, ?_⟩
    rw [← List.drop_drop, h3]

/-- Timesteps and the same ones cut into `m` parts: `R` relates the ejecta of a timestep and of its parts. -/
inductive CutRows (m : Nat) (R : K → List K → Prop) : List (K × K) → List (K × K) → Prop
  | nil : CutRows m R [] []
  | cons (y e : K) (es : List K) (r r' : List (K × K)) : 0 ≤ y → es.length = m → R e es → CutRows m R r r' →
      CutRows m R ((y, e) :: r) (cutStep m y es ++ r')

theorem CutRows.length {m : Nat} {R : K → List K → Prop} {r r' : List (K × K)} (h : CutRows m R r r') :
    r'.length = m * r.length := by
  induction h with
  | nil => simp
  | cons y e es r r' _ hl _ _ ih =>
    rw [List.length_append, cutStep, List.length_map, hl, ih, List.length_cons]
    ring

theorem CutRows.drop {m : Nat} {R : K → List K → Prop} {r r' : List (K × K)} (h : CutRows m R r r') :
    ∀ k, CutRows m R (r.drop k) (r'.drop (m * k)) := by
  induction h with
  | nil => intro k; simpa using CutRows.nil
  | cons y e es r r' hy hl hR h ih =>
    intro k
    cases k with
    | zero => simpa using CutRows.cons y e es r r' hy hl hR h
    | succ k =>
      have e1 : m * (k + 1) = (cutStep m y es).length + m * k := by rw [cutStep, List.length_map, hl]; ring
      rw [e1, List.drop_length_add_append, List.drop_succ_cons]
      exact ih k

/-- The whole of a cut period brings less, and as much if the parts are shielded as the whole was. -/
theorem CutRows.balance_le {shield ed : K} (hed : 0 ≤ ed) {m : Nat} (hm : 0 < m) {r r' : List (K × K)}
    (h : CutRows m (fun e es => e ≤ shield → ∀ x ∈ es, x ≤ shield) r r') :
    balance shield (ed / m) r' ≤ balance shield ed r := by
  have hm' : (0 : K) < m := by exact_mod_cast hm
  induction h with
  | nil => simp [balance]
  | cons y e es r r' hy hl hR h ih =>
    rw [balance_append, balance_cut, balance_cons, hl]
    refine add_le_add ?_ ih
    rw [mul_div_cancel₀ y hm'.ne']
    unfold keeps
    by_cases he : e ≤ shield
    · rw [if_pos he, List.filter_eq_self.2 (fun x hx => by simpa using hR he x hx), hl, div_mul_cancel₀ _ hm'.ne']
    · rw [if_neg he]
      exact sub_le_self _ (mul_nonneg (div_nonneg hed hm'.le) (Nat.cast_nonneg _))

theorem CutRows.balance_eq {shield ed : K} {m : Nat} (hm : 0 < m) {r r' : List (K × K)}
    (h : CutRows m (fun e es => ∀ x ∈ es, (x ≤ shield ↔ e ≤ shield)) r r') :
    balance shield (ed / m) r' = balance shield ed r := by
  have hm' : (0 : K) < m := by exact_mod_cast hm
  induction h with
  | nil => simp [balance]
  | cons y e es r r' hy hl hR h ih =>
    rw [balance_append, balance_cut, balance_cons, hl, ih, mul_div_cancel₀ y hm'.ne']
    unfold keeps
    congr 1
    by_cases he : e ≤ shield
    · rw [if_pos he, List.filter_eq_self.2 (fun x hx => by simpa using (hR x hx).2 he), hl, div_mul_cancel₀ _ hm'.ne']
    · rw [if_neg he, List.filter_eq_nil_iff.2 (fun x hx => by simpa using fun h => he ((hR x hx).1 h))]
      simp

theorem CutRows.weaken {shield : K} {m : Nat} {r r' : List (K × K)}
    (h : CutRows m (fun e es => ∀ x ∈ es, (x ≤ shield ↔ e ≤ shield)) r r') :
    CutRows m (fun e es => e ≤ shield → ∀ x ∈ es, x ≤ shield) r r' := by
  induction h with
  | nil => exact .nil
  | cons y e es r r' hy hl hR _ ih => exact .cons y e es r r' hy hl (fun he x hx => (hR x hx).2 he) ih

/-- No balance of the parts exceeds all balances of the wholes. -/
theorem CutRows.le_some {shield ed : K} (hed : 0 ≤ ed) {m : Nat} (hm : 0 < m) {r r' : List (K × K)}
    (h : CutRows m (fun e es => e ≤ shield → ∀ x ∈ es, x ≤ shield) r r') :
    ∀ i ≤ r'.length, ∃ j ≤ r.length, balance shield (ed / m) (r'.drop i) ≤ balance shield ed (r.drop j) := by
  have hm' : (0 : K) < m := by exact_mod_cast hm
  induction h with
  | nil => exact fun i _ => ⟨0, by simp, by simp [balance]⟩
  | cons y e es r r' hy hl hR h ih =>
    intro i hi
    have hlen : (cutStep m y es).length = m := by rw [cutStep, List.length_map, hl]
    rcases Nat.lt_or_ge i m with him | him
    · have hb := h.balance_le hed hm
      have hd : (cutStep m y es ++ r').drop i = cutStep m y (es.drop i) ++ r' := by
        rw [List.drop_append_of_le_length (by omega), cutStep, cutStep, List.map_drop]
      rw [hd, balance_append, balance_cut, List.length_drop, hl]
      obtain ⟨f, hf⟩ : ∃ f : K, f = ((m - i : Nat) : K) / m := ⟨_, rfl⟩
      have f0 : 0 ≤ f := by rw [hf]; positivity
      have f1 : f ≤ 1 := by
        rw [hf, div_le_one hm']
        exact_mod_cast Nat.sub_le m i
      have ey : ((m - i : Nat) : K) * (y / m) = f * y := by rw [hf]; ring
      rw [ey]
      by_cases he : e ≤ shield
      · rw [List.filter_eq_self.2 (fun x hx => by simpa using hR he x (List.mem_of_mem_drop hx)), List.length_drop, hl]
        have ee : ed / m * ((m - i : Nat) : K) = f * ed := by rw [hf]; ring
        rw [ee]
        rcases le_total ed y with hy' | hy'
        · refine ⟨0, by simp, ?_⟩
          rw [List.drop_zero, balance_cons]
          unfold keeps
          rw [if_pos he]
          have := mul_le_mul_of_nonneg_right f1 (sub_nonneg.2 hy')
          simp only
          linarith [this, hb, mul_sub f y ed]
        · refine ⟨1, by simp, ?_⟩
          rw [List.drop_succ_cons, List.drop_zero]
          have := mul_nonneg f0 (sub_nonneg.2 hy')
          linarith [this, hb, mul_sub f ed y]
      · refine ⟨0, by simp, ?_⟩
        rw [List.drop_zero, balance_cons]
        unfold keeps
        rw [if_neg he]
        have h1 := mul_le_mul_of_nonneg_right f1 hy
        have h2 : 0 ≤ ed / m * (((es.drop i).filter fun e => decide (e ≤ shield)).length : K) :=
          mul_nonneg (div_nonneg hed hm'.le) (Nat.cast_nonneg _)
        simp only
        linarith
    · have hd : (cutStep m y es ++ r').drop i = r'.drop (i - m) := by
        rw [List.drop_append, List.drop_eq_nil_of_le (by omega), List.nil_append, hlen]
      rw [List.length_append, hlen] at hi
      obtain ⟨j, j1, j2⟩ := ih (i - m) (by omega)
      exact ⟨j + 1, by simpa using j1, by rw [hd, List.drop_succ_cons]; exact j2⟩

theorem zip_const (a : K) : ∀ es : List K, (List.replicate es.length a).zip es = es.map fun e => (a, e)
  | [] => rfl
  | e :: es => by
    rw [List.length_cons, List.replicate_succ, List.zip_cons_cons, zip_const a es, List.map_cons]

theorem CutRows.of_lists {m : Nat} {R : K → List K → Prop} {ej : List K} {ejs : List (List K)}
    (h : List.Forall₂ (fun e es => es.length = m ∧ R e es) ej ejs) : ∀ ys : List K, ys.length = ej.length →
    (∀ y ∈ ys, 0 ≤ y) →
    CutRows m R (ys.zip ej) ((ys.flatMap fun y => List.replicate m (y / (m : K))).zip ejs.flatten) := by
  induction h with
  | nil =>
    intro ys hl _
    cases List.length_eq_zero_iff.1 (show ys.length = 0 from hl)
    exact .nil
  | @cons e es ej ejs h1 h ih =>
    intro ys hl hy
    cases ys with
    | nil => simp at hl
    | cons y ys =>
      rw [List.zip_cons_cons, List.flatMap_cons, List.flatten_cons, List.zip_append (by rw [List.length_replicate, h1.1])]
      have : (List.replicate m (y / (m : K))).zip es = cutStep m y es := by
        rw [← h1.1, zip_const, cutStep]
      rw [this]
      exact .cons y e es _ _ (hy y (by simp)) h1.1 h1.2 (ih ys (by simpa using hl) fun z hz => hy z (by simp [hz]))

theorem flatMap_nonneg {m : Nat} {ys : List K} (h : ∀ y ∈ ys, 0 ≤ y) :
    ∀ y ∈ ys.flatMap fun y => List.replicate m (y / (m : K)), 0 ≤ y := by
  intro z hz
  obtain ⟨y, hy, hz⟩ := List.mem_flatMap.1 hz
  rw [(List.mem_replicate.1 hz).2]
  exact div_nonneg (h y hy) (Nat.cast_nonneg _)

theorem flatMap_len {m : Nat} : ∀ ys : List K,
    (ys.flatMap fun y => List.replicate m (y / (m : K))).length = m * ys.length
  | [] => by simp
  | y :: ys => by
    rw [List.flatMap_cons, List.length_append, flatMap_len ys, List.length_replicate, List.length_cons]
    ring

theorem cutFlatten_len {m : Nat} {R : K → List K → Prop} {ej : List K} {ejs : List (List K)}
    (h : List.Forall₂ (fun e es => es.length = m ∧ R e es) ej ejs) : ejs.flatten.length = m * ej.length := by
  induction h with
  | nil => simp
  | cons h1 _ ih =>
    rw [List.flatten_cons, List.length_append, ih, h1.1, List.length_cons]
    ring

/-- **C165** A column under the erosion of Cannon et al., and the same with timesteps of an `m`-th of the length: the
ice of each timestep comes in `m` equal parts and an `m`-th of the depth is taken at each.  If the parts of a timestep
are shielded exactly when the timestep was, the ice left from each timestep on is the same. -/
theorem C165_equal (shield ed : K) (hed : 0 ≤ ed) (m : Nat) (hm : 0 < m) (ej ys : List K) (ejs : List (List K))
    (h0 : ∀ y ∈ ys, 0 ≤ y) (hej : ys.length = ej.length)
    (hs : List.Forall₂ (fun e es => es.length = m ∧ ∀ x ∈ es, (x ≤ shield ↔ e ≤ shield)) ej ejs) :
    ∃ r r', overturnOnly (fun x => x) shield false ej 0 (List.replicate ys.length ed) ys = .ok r ∧
      overturnOnly (fun x => x) shield false ejs.flatten 0 (List.replicate (m * ys.length) (ed / m))
        (ys.flatMap fun y => List.replicate m (y / (m : K))) = .ok r' ∧
      ∀ k ≤ ys.length, (r'.drop (m * k)).sum = (r.drop k).sum := by
  have hm' : (0 : K) < m := by exact_mod_cast hm
  have hc := CutRows.of_lists hs ys hej h0
  have hlz : (ys.zip ej).length = ys.length := by rw [List.length_zip]; omega
  obtain ⟨r, r1, r2, -⟩ := C162_column shield ed hed ej (List.replicate ys.length ed) ys
    (fun o ho => (List.mem_replicate.1 ho).2) h0 (by simp) (by simp [hej])
  obtain ⟨r', q1, q2, -⟩ := C162_column shield (ed / m) (div_nonneg hed hm'.le) ejs.flatten
    (List.replicate (m * ys.length) (ed / m)) (ys.flatMap fun y => List.replicate m (y / (m : K)))
    (fun o ho => (List.mem_replicate.1 ho).2) (flatMap_nonneg h0) (by rw [flatMap_len, List.length_replicate])
    (by rw [cutFlatten_len hs, List.length_replicate, hej])
  refine ⟨r, r', r1, q1, fun k hk => ?_⟩
  have a := r2 k hk
  have b := q2 (m * k) (by rw [flatMap_len]; exact Nat.mul_le_mul_left m hk)
  rw [balancesFrom_drop _ _ _ _ (by omega)] at a
  rw [balancesFrom_drop _ _ _ _ (by rw [hc.length, hlz]; exact Nat.mul_le_mul_left m hk)] at b
  have hk' := hc.drop k
  apply le_antisymm
  · obtain ⟨i, -, i1, i2⟩ := b.1
    obtain ⟨j, j1, j2⟩ := hk'.weaken.le_some hed hm i i1
    rw [i2]
    exact j2.trans (a.2 ⟨j, Nat.zero_le _, j1, rfl⟩)
  · obtain ⟨j, -, j1, j2⟩ := a.1
    refine b.2 ⟨m * j, Nat.zero_le _, ?_, ?_⟩
    · rw [hk'.length]
      exact Nat.mul_le_mul_left m j1
    · rw [j2, (hk'.drop j).balance_eq hm]

/-- **C165** If only some of the parts of a shielded timestep are shielded, as when the ejecta land in one of them, no more
ice is left. -/
theorem C165_less (shield ed : K) (hed : 0 ≤ ed) (m : Nat) (hm : 0 < m) (ej ys : List K) (ejs : List (List K))
    (h0 : ∀ y ∈ ys, 0 ≤ y) (hej : ys.length = ej.length)
    (hs : List.Forall₂ (fun e es => es.length = m ∧ (e ≤ shield → ∀ x ∈ es, x ≤ shield)) ej ejs) :
    ∃ r r', overturnOnly (fun x => x) shield false ej 0 (List.replicate ys.length ed) ys = .ok r ∧
      overturnOnly (fun x => x) shield false ejs.flatten 0 (List.replicate (m * ys.length) (ed / m))
        (ys.flatMap fun y => List.replicate m (y / (m : K))) = .ok r' ∧
      ∀ k ≤ ys.length, (r'.drop (m * k)).sum ≤ (r.drop k).sum := by
  have hm' : (0 : K) < m := by exact_mod_cast hm
  have hc := CutRows.of_lists hs ys hej h0
  have hlz : (ys.zip ej).length = ys.length := by rw [List.length_zip]; omega
  obtain ⟨r, r1, r2, -⟩ := C162_column shield ed hed ej (List.replicate ys.length ed) ys
    (fun o ho => (List.mem_replicate.1 ho).2) h0 (by simp) (by simp [hej])
  obtain ⟨r', q1, q2, -⟩ := C162_column shield (ed / m) (div_nonneg hed hm'.le) ejs.flatten
    (List.replicate (m * ys.length) (ed / m)) (ys.flatMap fun y => List.replicate m (y / (m : K)))
    (fun o ho => (List.mem_replicate.1 ho).2) (flatMap_nonneg h0) (by rw [flatMap_len, List.length_replicate])
    (by rw [cutFlatten_len hs, List.length_replicate, hej])
  refine ⟨r, r', r1, q1, fun k hk => ?_⟩
  have a := r2 k hk
  have b := q2 (m * k) (by rw [flatMap_len]; exact Nat.mul_le_mul_left m hk)
  rw [balancesFrom_drop _ _ _ _ (by omega)] at a
  rw [balancesFrom_drop _ _ _ _ (by rw [hc.length, hlz]; exact Nat.mul_le_mul_left m hk)] at b
  obtain ⟨i, -, i1, i2⟩ := b.1
  obtain ⟨j, j1, j2⟩ := (hc.drop k).le_some hed hm i i1
  rw [i2]
  exact j2.trans (a.2 ⟨j, Nat.zero_le _, j1, rfl⟩)

/-- Both in numbers: two timesteps cut in halves.  With the ejecta of the second in both halves 1.5 m are left as before, with
the ejecta in the first half 1.25 m. -/
example : overturnOnly (fun x => x) (2 / 5) false [0, 1] 0 [1 / 2, 1 / 2] ([1, 1] : List ℚ) = .ok [1 / 2, 1] ∧
    overturnOnly (fun x => x) (2 / 5) false [0, 0, 1, 1] 0 [1 / 4, 1 / 4, 1 / 4, 1 / 4] ([1 / 2, 1 / 2, 1 / 2, 1 / 2] : List ℚ) =
      .ok [1 / 4, 1 / 4, 1 / 2, 1 / 2] ∧
    overturnOnly (fun x => x) (2 / 5) false [0, 0, 1, 0] 0 [1 / 4, 1 / 4, 1 / 4, 1 / 4] ([1 / 2, 1 / 2, 1 / 2, 1 / 2] : List ℚ) =
      .ok [1 / 4, 1 / 4, 1 / 2, 1 / 4] := by decide +kernel

/-- The hypotheses of both theorems can be met. -/
example : List.Forall₂ (fun (e : ℚ) es => es.length = 2 ∧ ∀ x ∈ es, (x ≤ 2 / 5 ↔ e ≤ 2 / 5)) [0, 1] [[0, 1 / 5], [1, 2]] ∧
    List.Forall₂ (fun (e : ℚ) es => es.length = 2 ∧ (e ≤ 2 / 5 → ∀ x ∈ es, x ≤ 2 / 5)) [0, 1] [[0, 0], [1, 0]] := by
  refine ⟨.cons (by decide +kernel) (.cons (by decide +kernel) .nil), .cons (by decide +kernel) (.cons (by decide +kernel) .nil)⟩

end

end MoonPIES
