import Verif.Lemmas.Idle
import Mathlib.Data.Rat.Floor
import Mathlib.Tactic.NormNum

/-!
# C128: a timestep in which nothing happens leaves no trace
-/

namespace MoonPIES

open Spec

variable {K : Type} [Field K] [LinearOrder K] [IsStrictOrderedRing K]

/-! ## Specification -/

/-- `l'` is `l` with the entry `a` inserted, the first `k` entries before it. -/
def Spec.Inserted {α : Type} (k : Nat) (a : α) (l l' : List α) : Prop :=
  ∃ front back, l = front ++ back ∧ l' = front ++ a :: back ∧ front.length = k

/-- The same column with an empty layer inserted; its source may be anything. -/
def Spec.InsertedCol (k : Nat) (c c' : StratCol K) : Prop :=
  Inserted k 0 c.ice c'.ice ∧ Inserted k 0 c.ej c'.ej ∧ ∃ s, Inserted k s c.src c'.src

/-- The same cold traps in the same order, each with an empty layer inserted. -/
def Spec.InsertedCols (k : Nat) (cols cols' : PyDict (StratCol K)) : Prop :=
  List.Forall₂ (fun p q => p.1 = q.1 ∧ InsertedCol k p.2 q.2) cols cols'

/-! ## The time loop -/

theorem inserted_iff {α : Type} {k : Nat} {a : α} {l l' : List α} :
    Inserted k a l l' ↔ l' = putAt k a l ∧ k ≤ l.length := by
  constructor
  · rintro ⟨f, b, rfl, rfl, rfl⟩
    refine ⟨?_, by simp⟩
    rw [putAt, List.take_left, List.drop_left]
  · rintro ⟨rfl, h⟩
    exact ⟨l.take k, l.drop k, (List.take_append_drop k l).symm, rfl, by
      rw [List.length_take]; omega⟩

theorem insertedCols_get {k : Nat} {cols cols' : PyDict (StratCol K)} (h : InsertedCols k cols cols')
    (n : String) {c : StratCol K} (hc : cols.get n = .ok c) :
    ∃ c', cols'.get n = .ok c' ∧ InsertedCol k c c' := by
  induction h with
  | nil => cases hc
  | @cons p q ps qs hpq _ ih =>
    obtain ⟨kp, vp⟩ := p
    obtain ⟨kq, vq⟩ := q
    obtain ⟨rfl, hv⟩ := hpq
    simp only [PyDict.get] at hc ⊢
    by_cases hk : kp = n
    · rw [if_pos hk] at hc ⊢
      injection hc with hc
      exact ⟨vq, rfl, hc ▸ hv⟩
    · rw [if_neg hk] at hc ⊢
      exact ih hc

theorem insertedCols_set {k : Nat} {cols cols' : PyDict (StratCol K)} (h : InsertedCols k cols cols')
    (n : String) {c c' : StratCol K} (hc : InsertedCol k c c') :
    InsertedCols k (cols.set n c) (cols'.set n c') := by
  induction h with
  | nil => exact List.Forall₂.cons ⟨rfl, hc⟩ List.Forall₂.nil
  | @cons p q ps qs hpq hrest ih =>
    obtain ⟨kp, vp⟩ := p
    obtain ⟨kq, vq⟩ := q
    obtain ⟨rfl, hv⟩ := hpq
    simp only [PyDict.set]
    by_cases hk : kp = n
    · rw [if_pos hk, if_pos hk]
      exact List.Forall₂.cons ⟨rfl, hc⟩ hrest
    · rw [if_neg hk, if_neg hk]
      exact List.Forall₂.cons ⟨rfl, hv⟩ ih

/-- One timestep on both sides. -/
theorem updateTraps_put {k : Nat} {shield : K} {costello : Bool} {bd bf bd' bf' : List (List K)}
    {t t' : Nat} {ov : K} (hd : ∀ i, pyGet2 bd' t' i = pyGet2 bd t i)
    (hf : ∀ i, pyGet2 bf' t' i = pyGet2 bf t i)
    (hstep : ∀ (ice ej : List K) (d f : K), k ≤ ice.length → k ≤ ej.length →
      updateIceCol (fun x => x) shield costello (putAt k 0 ice) (putAt k 0 ej) t' ov d f =
        (updateIceCol (fun x => x) shield costello ice ej t ov d f).map (putAt k 0)) :
    ∀ (names : List String) (i : Nat) (cols cols' mid : PyDict (StratCol K)),
    InsertedCols k cols cols' →
    updateTraps (fun x => x) shield costello bd bf t ov i names cols = .ok mid →
    ∃ mid', updateTraps (fun x => x) shield costello bd' bf' t' ov i names cols' = .ok mid' ∧
      InsertedCols k mid mid' := by
  intro names
  induction names with
  | nil =>
    intro i cols cols' mid h hm
    injection hm with hm
    exact ⟨cols', rfl, hm ▸ h⟩
  | cons n rest ih =>
    intro i cols cols' mid h hm
    obtain ⟨c, d, f, ice, h1, h2, h3, h4, h5⟩ := updateTraps_cons hm
    obtain ⟨c', g1, g2, g3, g4⟩ := insertedCols_get h n h1
    obtain ⟨e2, l2⟩ := inserted_iff.1 g2
    obtain ⟨e3, l3⟩ := inserted_iff.1 g3
    have hu := hstep c.ice c.ej d f l2 l3
    rw [h4, ← e2, ← e3] at hu
    have hlen := (updateIceCol_frame h4).1
    rw [updateTraps_of g1 ((hd i).trans h2) ((hf i).trans h3) hu]
    have hi : InsertedCol k { c with ice := ice } { c' with ice := putAt k 0 ice } :=
      ⟨inserted_iff.2 ⟨rfl, by change k ≤ ice.length; omega⟩, g3, g4⟩
    exact ih (i + 1) _ _ mid (insertedCols_set h n hi) h5

/-- The idle timestep. -/
theorem updateTraps_idle {k : Nat} {shield : K} {costello : Bool} {bd' bf' : List (List K)}
    {w : Nat} (hd : ∀ i, i < w → pyGet2 bd' k i = .ok 0)
    (hf : ∀ i, i < w → ∃ f, pyGet2 bf' k i = .ok f) :
    ∀ (names : List String) (i : Nat) (cols cols' : PyDict (StratCol K)), i + names.length ≤ w →
    (∀ n ∈ names, ∃ c, cols.get n = .ok c) → InsertedCols k cols cols' →
    ∃ mid', updateTraps (fun x => x) shield costello bd' bf' k 0 i names cols' = .ok mid' ∧
      InsertedCols k cols mid' := by
  intro names
  induction names with
  | nil => intro i cols cols' _ _ h; exact ⟨cols', rfl, h⟩
  | cons n rest ih =>
    intro i cols cols' hw hn h
    rw [List.length_cons] at hw
    obtain ⟨c, h1⟩ := hn n (by simp)
    obtain ⟨c', g1, g2⟩ := insertedCols_get h n h1
    obtain ⟨f, g3⟩ := hf i (by omega)
    rw [updateTraps_of g1 (hd i (by omega)) g3 (updateIceCol_idle shield costello c'.ice c'.ej k f)]
    refine ih (i + 1) cols _ (by omega) (fun m hm => hn m (by simp [hm])) ?_
    have hset := insertedCols_set h n g2
    have hself : ∀ (l : PyDict (StratCol K)) (c : StratCol K), l.get n = .ok c → l.set n c = l := by
      intro l
      induction l with
      | nil => intro c h; cases h
      | cons p l ih =>
        intro c h
        obtain ⟨kp, vp⟩ := p
        simp only [PyDict.get] at h
        simp only [PyDict.set]
        by_cases hk : kp = n
        · rw [if_pos hk] at h ⊢
          injection h with h
          rw [h, hk]
        · rw [if_neg hk] at h ⊢
          rw [ih c h]
    rw [hself _ _ h1] at hset
    exact hset

omit [Field K] [LinearOrder K] [IsStrictOrderedRing K] in
theorem pyGet2_put_lt {k t : Nat} {a : List K} {m : List (List K)} (h : t < k) (hk : k ≤ m.length)
    (i : Nat) : pyGet2 (putAt k a m) t i = pyGet2 m t i := by
  unfold pyGet2 pyGet
  rw [putAt_lt h hk]

omit [Field K] [LinearOrder K] [IsStrictOrderedRing K] in
theorem pyGet2_put_ge {k t : Nat} {a : List K} {m : List (List K)} (h : k ≤ t) (hk : k ≤ m.length)
    (i : Nat) : pyGet2 (putAt k a m) (t + 1) i = pyGet2 m t i := by
  unfold pyGet2 pyGet
  rw [putAt_ge h hk]

theorem updateTraps_get_some {shield : K} {costello : Bool} {bd bf : List (List K)} {t : Nat} {ov : K} :
    ∀ (names : List String) (i : Nat) (cols mid : PyDict (StratCol K)) (n : String),
    updateTraps (fun x => x) shield costello bd bf t ov i names cols = .ok mid →
    (∃ c, cols.get n = .ok c) → ∃ c, mid.get n = .ok c := by
  have hset : ∀ (l : PyDict (StratCol K)) (k n : String) (v : StratCol K), (∃ c, l.get n = .ok c) →
      ∃ c, (l.set k v).get n = .ok c := by
    intro l
    induction l with
    | nil => rintro k n v ⟨c, h⟩; cases h
    | cons p l ih =>
      rintro k n v ⟨c, h⟩
      obtain ⟨kp, vp⟩ := p
      simp only [PyDict.get] at h
      simp only [PyDict.set]
      by_cases hk : kp = k
      · rw [if_pos hk]
        simp only [PyDict.get]
        by_cases hn : k = n
        · exact ⟨v, by rw [if_pos hn]⟩
        · rw [if_neg (hk ▸ hn)] at h; exact ⟨c, by rw [if_neg hn]; exact h⟩
      · rw [if_neg hk]
        simp only [PyDict.get]
        by_cases hn : kp = n
        · exact ⟨vp, by rw [if_pos hn]⟩
        · rw [if_neg hn] at h ⊢; exact ih k n v ⟨c, h⟩
  intro names
  induction names with
  | nil => intro i cols mid n h hc; injection h with h; exact h ▸ hc
  | cons m rest ih =>
    intro i cols mid n h hc
    obtain ⟨c, d, f, ice, -, -, -, -, h5⟩ := updateTraps_cons h
    exact ih (i + 1) _ mid n h5 (hset _ _ _ _ hc)

/-- **C128** (columns) Insert into the record, at any time `k`, a timestep without ice, without
ejecta, without overturn and with zero sedimentation depth at every cold trap.  The run goes
through as before and every cold trap ends with the same layers, plus the empty one. -/
theorem C128_columns (k : Nat) (shield : K) (costello : Bool) (names : List String)
    {cols cols' : PyDict (StratCol K)} {ov ov' : List K} {bd bd' bf bf' : List (List K)}
    {drow frow : List K} (hcols : InsertedCols k cols cols')
    (hnames : ∀ n ∈ names, ∃ c, cols.get n = .ok c) (hov : Inserted k 0 ov ov')
    (hbd : Inserted k drow bd bd') (hd0 : ∀ x ∈ drow, x = 0) (hdl : drow.length = names.length)
    (hbf : Inserted k frow bf bf') (hfl : frow.length = names.length) {out : PyDict (StratCol K)}
    (h : updateStratCols (fun x => x) shield costello names cols ov bd bf = .ok out) :
    ∃ out', updateStratCols (fun x => x) shield costello names cols' ov' bd' bf' = .ok out' ∧
      InsertedCols k out out' := by
  obtain ⟨rfl, ld⟩ := inserted_iff.1 hbd
  obtain ⟨rfl, lf⟩ := inserted_iff.1 hbf
  -- after the idle timestep
  have hafter : ∀ (ovs : List K) (t : Nat) (cols cols' out : PyDict (StratCol K)), k ≤ t →
      InsertedCols k cols cols' →
      updateStratColsFrom (fun x => x) shield costello names bd bf t ovs cols = .ok out →
      ∃ out', updateStratColsFrom (fun x => x) shield costello names (putAt k drow bd)
        (putAt k frow bf) (t + 1) ovs cols' = .ok out' ∧ InsertedCols k out out' := by
    intro ovs
    induction ovs with
    | nil =>
      intro t cols cols' out _ hi ho
      injection ho with ho
      exact ⟨cols', rfl, ho ▸ hi⟩
    | cons o rest ih =>
      intro t cols cols' out ht hi ho
      obtain ⟨mid, m1, m2⟩ := updateFrom_cons ho
      obtain ⟨mid', n1, n2⟩ := updateTraps_put (fun i => pyGet2_put_ge (a := drow) ht ld i)
        (fun i => pyGet2_put_ge (a := frow) ht lf i)
        (fun ice ej d f h1 h2 => updateIceCol_put shield costello o d f ht h1 h2) names 0 cols cols'
        mid hi m1
      obtain ⟨out', o1, o2⟩ := ih (t + 1) mid mid' out (by omega) n2 m2
      refine ⟨out', ?_, o2⟩
      rw [updateStratColsFrom, n1]
      exact o1
  have hidle := updateTraps_idle (k := k) (shield := shield) (costello := costello)
    (bd' := putAt k drow bd) (bf' := putAt k frow bf) (w := names.length)
    (fun i hi => by
      unfold pyGet2 pyGet
      rw [putAt_self ld]
      simp only [bind, Except.bind]
      rw [List.getElem?_eq_getElem (hdl ▸ hi), hd0 _ (List.getElem_mem _)])
    (fun i hi => by
      unfold pyGet2 pyGet
      rw [putAt_self lf]
      simp only [bind, Except.bind]
      rw [List.getElem?_eq_getElem (hfl ▸ hi)]
      exact ⟨_, rfl⟩)
  obtain ⟨front, back, rfl, rfl, hfk⟩ := hov
  -- before the idle timestep
  have hbefore : ∀ (front : List K) (t : Nat) (cols cols' out : PyDict (StratCol K)),
      t + front.length = k → InsertedCols k cols cols' →
      (∀ n ∈ names, ∃ c, cols.get n = .ok c) →
      updateStratColsFrom (fun x => x) shield costello names bd bf t (front ++ back) cols = .ok out →
      ∃ out', updateStratColsFrom (fun x => x) shield costello names (putAt k drow bd)
        (putAt k frow bf) t (front ++ 0 :: back) cols' = .ok out' ∧ InsertedCols k out out' := by
    intro front
    induction front with
    | nil =>
      intro t cols cols' out ht hi hn ho
      obtain rfl : t = k := by simpa using ht
      obtain ⟨mid', n1, n2⟩ := hidle names 0 cols cols' (by omega) hn hi
      obtain ⟨out', o1, o2⟩ := hafter back t cols mid' out le_rfl n2 ho
      refine ⟨out', ?_, o2⟩
      rw [List.nil_append, updateStratColsFrom, n1]
      exact o1
    | cons o rest ih =>
      intro t cols cols' out ht hi hn ho
      rw [List.length_cons] at ht
      obtain ⟨mid, m1, m2⟩ := updateFrom_cons ho
      have htk : t < k := by omega
      obtain ⟨mid', n1, n2⟩ := updateTraps_put (fun i => pyGet2_put_lt (a := drow) htk ld i)
        (fun i => pyGet2_put_lt (a := frow) htk lf i)
        (fun ice ej d f h1 h2 => updateIceCol_put_below shield costello o d f htk h1 h2) names 0 cols
        cols' mid hi m1
      obtain ⟨out', o1, o2⟩ := ih (t + 1) mid mid' out (by omega) n2
        (fun n hn' => updateTraps_get_some names 0 cols mid n m1 (hn n hn')) m2
      refine ⟨out', ?_, o2⟩
      rw [List.cons_append, updateStratColsFrom, n1]
      exact o1
  exact hbefore front 0 cols cols' out (by omega) hcols hnames h

/-! ## The table -/

/-- **C128** (tables) The empty layer does not show in the table of the cold trap either: with a
minimum thickness that is not negative the table is exactly the same.  When the table is cut at the
age of the cold trap, the inserted time must be older than the cut, or some earlier timestep must
be younger than it; otherwise the inserted time would become the time of the `Formation age` row. -/
theorem C128_tables [FloorRing K] (k : Nat) (thickMin tol : K) (hmin : 0 ≤ thickMin) (after : Bool)
    (age : K) {steps steps' : List (Step K)} {new : Step K} (hins : Inserted k new steps steps')
    (hice : new.ice = 0) (hej : new.ejecta = 0)
    (hage : after = true → age + |age| * tol ≤ new.time ∨
      ∃ s ∈ steps.take k, s.time < age + |age| * tol) :
    makeStratCol thickMin tol after age steps' = makeStratCol thickMin tol after age steps := by
  obtain ⟨front, back, rfl, rfl, rfl⟩ := hins
  rw [List.take_left] at hage
  have hlab : rowLabel thickMin new = none := by
    unfold rowLabel
    simp [hice, hej, not_lt.2 hmin]
  obtain ⟨x, hx⟩ : ∃ x : Option String × Row K, labelRows thickMin (front ++ new :: back) =
      labelRows thickMin front ++ x :: labelRows thickMin back ∧ x.1 = none ∧ x.2.time = new.time := by
    refine ⟨(rowLabel thickMin new, ⟨new.time, new.ice, new.ejecta,
      (rowLabel thickMin new).getD ""⟩), ?_, hlab, rfl⟩
    unfold labelRows
    rw [List.map_append, List.map_cons]
  obtain ⟨hx1, hx2, hx3⟩ := hx
  have hy : labelRows thickMin (front ++ back) = labelRows thickMin front ++ labelRows thickMin back :=
    List.map_append
  have hdrop : ∀ a b : List (Option String × Row K),
      dropUnlabelled (a ++ x :: b) = dropUnlabelled (a ++ b) := by
    intro a b
    unfold dropUnlabelled
    rw [List.filterMap_append, List.filterMap_append, List.filterMap_cons, hx2]
    rfl
  unfold makeStratCol
  simp only [bind, Except.bind]
  rw [hx1, hy]
  cases after with
  | false =>
    simp only [Bool.false_eq_true, if_false]
    rw [hdrop]
  | true =>
    simp only [if_true]
    unfold cutAtAge
    rw [List.filter_append, List.filter_append, List.filter_cons, hx3]
    rcases hage rfl with h | ⟨s, hs, h⟩
    · have h' : ¬ decide (new.time < age + rtolAbs age tol) = true := fun h' =>
        absurd (of_decide_eq_true h') (not_lt.2 h)
      rw [if_neg h']
    · have hmem : ∃ r ∈ labelRows thickMin front, r.2.time < age + rtolAbs age tol :=
        ⟨_, List.mem_map_of_mem hs, h⟩
      cases hf : (labelRows thickMin front).filter
          (fun r => decide (r.2.time < age + rtolAbs age tol)) with
      | nil =>
        obtain ⟨r, hr1, hr2⟩ := hmem
        rw [List.filter_eq_nil_iff] at hf
        exact absurd (decide_eq_true hr2) (hf r hr1)
      | cons r rest =>
        simp only [List.cons_append]
        by_cases hn : decide (new.time < age + rtolAbs age tol) = true
        · rw [if_pos hn]
          have := hdrop ((some "Formation age",
            { time := r.2.time, ice := 0, ejecta := 0, label := "Formation age" }) :: r :: rest)
            ((labelRows thickMin back).filter (fun r => decide (r.2.time < age + rtolAbs age tol)))
          simp only [List.cons_append] at this
          rw [this]
        · rw [if_neg hn]

/-! ## Instances -/

/-- Two layers with gardening and sedimentation, an idle timestep between them. -/
example : InsertedCols (K := ℚ) 1 [("a", ⟨[2, 1], [1, 0], ["x", ""]⟩)]
      [("a", ⟨[2, 0, 1], [1, 0, 0], ["x", "", ""]⟩)] ∧
    (updateStratCols (fun x : ℚ => x) (2/5) true ["a"] [("a", ⟨[2, 1], [1, 0], ["x", ""]⟩)]
      [1, 1/2] [[0], [3]] [[0], [1/2]]).map (fun c => c.map fun p => p.2.ice) = .ok [[1, 1/2]] ∧
    (updateStratCols (fun x : ℚ => x) (2/5) true ["a"] [("a", ⟨[2, 0, 1], [1, 0, 0], ["x", "", ""]⟩)]
      [1, 0, 1/2] [[0], [0], [3]] [[0], [0], [1/2]]).map (fun c => c.map fun p => p.2.ice) =
      .ok [[1, 0, 1/2]] := by
  refine ⟨?_, by decide +kernel, by decide +kernel⟩
  refine List.Forall₂.cons ⟨rfl, ?_, ?_, "", ?_⟩ List.Forall₂.nil
  · exact ⟨[2], [1], rfl, rfl, rfl⟩
  · exact ⟨[1], [0], rfl, rfl, rfl⟩
  · exact ⟨["x"], [""], rfl, rfl, rfl⟩

/-- A timestep without ice and ejecta is not idle when it gardens: the layer below loses ice. -/
example : (updateStratCols (fun x : ℚ => x) (2/5) true ["a"]
      [("a", ⟨[2, 0], [0, 0], ["x", ""]⟩)] [0, 1] [[0], [0]] [[0], [0]]).map
      (fun c => c.map fun p => p.2.ice) = .ok [[1, 0]] := by
  decide +kernel

/-- The table with an idle timestep between two layers that are merged, cut at the age of the
trap; and the exception: an idle timestep that comes first after the cut gives its time to the
`Formation age` row. -/
example : makeStratCol (1/10 : ℚ) (1/1000) true 3 [⟨4, 1, 0, ""⟩, ⟨3, 1/2, 0, ""⟩, ⟨5/2, 0, 0, "y"⟩,
      ⟨2, 1/4, 0, ""⟩, ⟨1, 1, 3, "x"⟩] =
      .ok [⟨0, 0, "Formation age", 3, 19/4, none⟩, ⟨3/4, 0, "Ice", 2, 19/4, some 100⟩,
        ⟨1, 3, "x", 1, 4, some 25⟩] ∧
    makeStratCol (1/10 : ℚ) (1/1000) true 3 [⟨4, 1, 0, ""⟩, ⟨3, 0, 0, ""⟩, ⟨2, 1/4, 0, ""⟩] =
      .ok [⟨0, 0, "Formation age", 3, 1/4, none⟩, ⟨1/4, 0, "Ice", 2, 1/4, some 100⟩] ∧
    makeStratCol (1/10 : ℚ) (1/1000) true 3 [⟨4, 1, 0, ""⟩, ⟨2, 1/4, 0, ""⟩] =
      .ok [⟨0, 0, "Formation age", 2, 1/4, none⟩, ⟨1/4, 0, "Ice", 2, 1/4, some 100⟩] := by
  refine ⟨?_, ?_, ?_⟩ <;> decide +kernel

end MoonPIES
