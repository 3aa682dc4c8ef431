import Verif.Lemmas.ColumnExact
import Verif.Spec.Run

/-!
# Lemmas about the time loop over all cold traps
-/

namespace MoonPIES

open Spec

set_option linter.unusedSectionVars false

section Dict

variable {α β : Type}

theorem PyDict.mem_of_get {d : PyDict α} {k : String} {v : α} (h : d.get k = .ok v) :
    (k, v) ∈ d := by
  induction d with
  | nil => cases h
  | cons p rest ih =>
    obtain ⟨k', v'⟩ := p
    rw [PyDict.get] at h
    split at h
    · rename_i hk; cases h; subst hk; simp
    · exact List.mem_cons_of_mem _ (ih h)

theorem PyDict.get_of_key {d : PyDict α} {k : String} (h : k ∈ d.map (·.1)) :
    ∃ v, d.get k = .ok v := by
  induction d with
  | nil => simp at h
  | cons p rest ih =>
    obtain ⟨k', v'⟩ := p
    rw [PyDict.get]
    split
    · exact ⟨_, rfl⟩
    · rename_i hk
      simp at h
      rcases h with h | ⟨x, h⟩
      · exact absurd h.symm hk
      · exact ih (by simpa using ⟨x, h⟩)

theorem PyDict.get_set_self (d : PyDict α) (k : String) (v : α) : (d.set k v).get k = .ok v := by
  induction d with
  | nil => simp [PyDict.set, PyDict.get]
  | cons p rest ih =>
    obtain ⟨k', v'⟩ := p
    rw [PyDict.set]
    split
    · simp [PyDict.get]
    · rename_i hk; simp [PyDict.get, hk, ih]

theorem PyDict.get_set_ne (d : PyDict α) {k k' : String} (v : α) (h : k ≠ k') :
    (d.set k v).get k' = d.get k' := by
  induction d with
  | nil => simp [PyDict.set, PyDict.get, h]
  | cons p rest ih =>
    obtain ⟨k₁, v₁⟩ := p
    rw [PyDict.set]
    split
    · rename_i hk; subst hk; simp [PyDict.get, h]
    · simp only [PyDict.get, ih]

/-- Replacing the value that `get` finds relates the dictionaries entrywise. -/
theorem PyDict.forall₂_set {R : α → α → Prop} {d : PyDict α} {k : String} {v v' : α}
    (hrefl : ∀ p ∈ d, R p.2 p.2) (hg : d.get k = .ok v) (hv : R v v') :
    List.Forall₂ (fun p p' => p.1 = p'.1 ∧ R p.2 p'.2) d (d.set k v') := by
  induction d with
  | nil => cases hg
  | cons p rest ih =>
    obtain ⟨k₁, v₁⟩ := p
    rw [PyDict.get] at hg
    rw [PyDict.set]
    split at hg
    · rename_i hk
      cases hg
      rw [if_pos hk]
      refine .cons ⟨hk, hv⟩ ?_
      rw [List.forall₂_same]
      intro q hq
      exact ⟨rfl, hrefl q (List.mem_cons_of_mem _ hq)⟩
    · rename_i hk
      rw [if_neg hk]
      exact .cons ⟨rfl, hrefl _ (by simp)⟩ (ih (fun q hq => hrefl q (List.mem_cons_of_mem _ hq)) hg)

end Dict

variable {K : Type} [Field K] [LinearOrder K]

theorem garden_turns' (t : Int) : (2 * t + 2).toNat = 2 * (t + 1).toNat := by omega

section Step

theorem updateIceCol_total (fl : K → K) (shield : K) (costello : Bool) (ice ej : List K) (t : Nat)
    (ov bd bf : K) (hi : t < ice.length) (he : t < ej.length) :
    ∃ ice', updateIceCol fl shield costello ice ej t ov bd bf = .ok ice' := by
  unfold updateIceCol
  obtain ⟨i1, h1⟩ := gardenLoop_total fl ej bd bf t 0 ice (by omega) (by omega)
  have h1' : gardenIceColumn fl ice ej ((t : Int) - 1) bd bf = .ok i1 := by
    unfold gardenIceColumn
    rw [garden_turns', show ((t : Int) - 1 + 1).toNat = t by omega]; exact h1
  have hlen := (gardenLoop_frame _ _ _ _ _ _ _ _ h1).1
  rw [h1']
  show ∃ ice', removeIceOverturn fl shield costello i1 ej t ov = .ok ice'
  unfold removeIceOverturn
  cases costello with
  | true =>
    simp only [if_true]
    unfold gardenIceColumn
    rw [garden_turns', show ((t : Int) + 1).toNat = t + 1 by omega]
    exact gardenLoop_total _ _ _ _ _ _ _ (by omega) (by omega)
  | false =>
    simp only [Bool.false_eq_true, if_false]
    exact erodeLoop_total _ _ _ _ _ _ (by omega)

theorem updateIceCol_split {fl : K → K} {shield : K} {costello : Bool} {ice ej : List K} {t : Nat}
    {ov bd bf : K} {ice' : List K}
    (h : updateIceCol fl shield costello ice ej t ov bd bf = .ok ice') :
    ∃ i1, gardenLoop fl ej bd bf (2 * t) 0 ice = .ok i1 ∧
      removeIceOverturn fl shield costello i1 ej t ov = .ok ice' := by
  unfold updateIceCol at h
  cases hg : gardenIceColumn fl ice ej ((t : Int) - 1) bd bf with
  | error e => rw [hg] at h; cases h
  | ok i1 =>
    rw [hg] at h
    refine ⟨i1, ?_, h⟩
    unfold gardenIceColumn at hg
    rw [garden_turns', show ((t : Int) - 1 + 1).toNat = t by omega] at hg
    exact hg

theorem removeIceOverturn_frame {fl : K → K} {shield : K} {costello : Bool} {ice ej : List K}
    {t : Nat} {ov : K} {ice' : List K}
    (h : removeIceOverturn fl shield costello ice ej t ov = .ok ice') :
    ice'.length = ice.length ∧ ∀ i, t < i → ice'[i]? = ice[i]? := by
  unfold removeIceOverturn at h
  split at h
  · unfold gardenIceColumn at h
    rw [garden_turns', show ((t : Int) + 1).toNat = t + 1 by omega] at h
    have := gardenLoop_frame _ _ _ _ _ _ _ _ h
    exact ⟨this.1, fun i hi => this.2 i hi⟩
  · have := erodeLoop_frame _ _ _ _ _ _ _ h
    exact ⟨this.1, fun i hi => this.2 i hi⟩

theorem updateIceCol_frame {fl : K → K} {shield : K} {costello : Bool} {ice ej : List K} {t : Nat}
    {ov bd bf : K} {ice' : List K}
    (h : updateIceCol fl shield costello ice ej t ov bd bf = .ok ice') :
    ice'.length = ice.length ∧ ∀ i, t < i → ice'[i]? = ice[i]? := by
  obtain ⟨i1, h1, h2⟩ := updateIceCol_split h
  have a := gardenLoop_frame _ _ _ _ _ _ _ _ h1
  have b := removeIceOverturn_frame h2
  exact ⟨b.1.trans a.1, fun i hi => (b.2 i hi).trans (a.2 i hi.le)⟩

variable [IsStrictOrderedRing K]

theorem removeIceOverturn_safe {fl : K → K} (hfl : Rounding fl) {shield : K} {costello : Bool}
    {ice ej : List K} {t : Nat} {ov : K} {ice' : List K} (hov : Repr fl ov)
    (h0 : ∀ x ∈ ice, 0 ≤ x) (hr : ∀ x ∈ ice, Repr fl x)
    (h : removeIceOverturn fl shield costello ice ej t ov = .ok ice') :
    OnlyLosesIce ice ice' ∧ ∀ x ∈ ice', Repr fl x := by
  unfold removeIceOverturn at h
  split at h
  · unfold gardenIceColumn at h
    rw [garden_turns'] at h
    exact gardenLoop_safe hfl ej hov zero_le_one le_rfl _ _ _ _ h0 hr h
  · exact erodeLoop_safe hfl _ _ _ _ _ _ h0 hr h

theorem updateIceCol_safe {fl : K → K} (hfl : Rounding fl) {shield : K} {costello : Bool}
    {ice ej : List K} {t : Nat} {ov bd bf : K} {ice' : List K} (hov : Repr fl ov)
    (hbd : Repr fl bd) (hf0 : 0 ≤ bf) (hf1 : bf ≤ 1)
    (h0 : ∀ x ∈ ice, 0 ≤ x) (hr : ∀ x ∈ ice, Repr fl x)
    (h : updateIceCol fl shield costello ice ej t ov bd bf = .ok ice') :
    OnlyLosesIce ice ice' ∧ ∀ x ∈ ice', Repr fl x := by
  obtain ⟨i1, h1, h2⟩ := updateIceCol_split h
  have a := gardenLoop_safe hfl ej hbd hf0 hf1 _ _ _ _ h0 hr h1
  have b := removeIceOverturn_safe hfl hov (onlyLoses_nonneg a.1) a.2 h2
  exact ⟨onlyLoses_trans a.1 b.1, b.2⟩

end Step

section Bind

theorem pyGet_ok {α : Type} {l : List α} {i : Nat} (h : i < l.length) :
    pyGet l i = .ok l[i] := by
  unfold pyGet; rw [List.getElem?_eq_getElem h]

theorem pyGet_eq_ok {α : Type} {l : List α} {i : Nat} {x : α} :
    pyGet l i = .ok x ↔ l[i]? = some x := by
  unfold pyGet
  cases l[i]? <;> simp

theorem pyGet2_mem {α : Type} {m : List (List α)} {t i : Nat} {x : α} (h : pyGet2 m t i = .ok x) :
    ∃ row ∈ m, x ∈ row := by
  unfold pyGet2 at h
  cases hr : pyGet m t with
  | error e => rw [hr] at h; cases h
  | ok row =>
    rw [hr] at h
    have h2 := pyGet_eq_ok.1 h
    exact ⟨row, List.mem_of_getElem? (pyGet_eq_ok.1 hr), List.mem_of_getElem? h2⟩

theorem pyGet2_total {α : Type} {m : List (List α)} {t i : Nat} (ht : t < m.length)
    (hi : ∀ row ∈ m, i < row.length) : ∃ x, pyGet2 m t i = .ok x := by
  unfold pyGet2
  rw [pyGet_ok ht]
  exact ⟨_, pyGet_ok (hi _ (List.getElem_mem ht))⟩

/-- One turn of the inner loop, spelled out. -/
theorem updateTraps_cons {fl : K → K} {shield : K} {costello : Bool}
    {bsD bsF : List (List K)} {t : Nat} {ov : K} {i : Nat} {name : String} {rest : List String}
    {cols cols' : PyDict (StratCol K)}
    (h : updateTraps fl shield costello bsD bsF t ov i (name :: rest) cols = .ok cols') :
    ∃ c d f ice, cols.get name = .ok c ∧ pyGet2 bsD t i = .ok d ∧ pyGet2 bsF t i = .ok f ∧
      updateIceCol fl shield costello c.ice c.ej t ov d f = .ok ice ∧
      updateTraps fl shield costello bsD bsF t ov (i + 1) rest
        (cols.set name { c with ice := ice }) = .ok cols' := by
  rw [updateTraps] at h
  cases h1 : cols.get name with
  | error e => rw [h1] at h; cases h
  | ok c =>
    rw [h1] at h
    cases h2 : pyGet2 bsD t i with
    | error e => rw [h2] at h; cases h
    | ok d =>
      rw [h2] at h
      cases h3 : pyGet2 bsF t i with
      | error e => rw [h3] at h; cases h
      | ok f =>
        rw [h3] at h
        cases h4 : updateIceCol fl shield costello c.ice c.ej t ov d f with
        | error e =>
          have : (Except.error e : Except PyErr (PyDict (StratCol K))) = .ok cols' := by
            rw [← h]; simp [bind, Except.bind, h4]
          cases this
        | ok ice =>
          refine ⟨c, d, f, ice, rfl, rfl, rfl, h4, ?_⟩
          rw [← h]; simp [bind, Except.bind, h4]

theorem updateTraps_of {fl : K → K} {shield : K} {costello : Bool}
    {bsD bsF : List (List K)} {t : Nat} {ov : K} {i : Nat} {name : String} {rest : List String}
    {cols : PyDict (StratCol K)} {c : StratCol K} {d f : K} {ice : List K}
    (h1 : cols.get name = .ok c) (h2 : pyGet2 bsD t i = .ok d) (h3 : pyGet2 bsF t i = .ok f)
    (h4 : updateIceCol fl shield costello c.ice c.ej t ov d f = .ok ice) :
    updateTraps fl shield costello bsD bsF t ov i (name :: rest) cols =
      updateTraps fl shield costello bsD bsF t ov (i + 1) rest
        (cols.set name { c with ice := ice }) := by
  rw [updateTraps]
  simp [bind, Except.bind, h1, h2, h3, h4]

theorem updateFrom_cons {fl : K → K} {shield : K} {costello : Bool} {names : List String}
    {bsD bsF : List (List K)} {t : Nat} {ov : K} {rest : List K} {cols cols' : PyDict (StratCol K)}
    (h : updateStratColsFrom fl shield costello names bsD bsF t (ov :: rest) cols = .ok cols') :
    ∃ mid, updateTraps fl shield costello bsD bsF t ov 0 names cols = .ok mid ∧
      updateStratColsFrom fl shield costello names bsD bsF (t + 1) rest mid = .ok cols' := by
  rw [updateStratColsFrom] at h
  cases h1 : updateTraps fl shield costello bsD bsF t ov 0 names cols with
  | error e => rw [h1] at h; cases h
  | ok mid => rw [h1] at h; exact ⟨mid, rfl, h⟩

theorem updateFrom_append (fl : K → K) (shield : K) (costello : Bool) (names : List String)
    (bsD bsF : List (List K)) (a b : List K) : ∀ (t : Nat) (cols : PyDict (StratCol K)),
    updateStratColsFrom fl shield costello names bsD bsF t (a ++ b) cols =
      (updateStratColsFrom fl shield costello names bsD bsF t a cols).bind
        (updateStratColsFrom fl shield costello names bsD bsF (t + a.length) b) := by
  induction a with
  | nil => intro t cols; simp [updateStratColsFrom, Except.bind]
  | cons x a ih =>
    intro t cols
    simp only [List.cons_append, updateStratColsFrom]
    cases updateTraps fl shield costello bsD bsF t x 0 names cols with
    | error e => rfl
    | ok mid =>
      show updateStratColsFrom fl shield costello names bsD bsF (t + 1) (a ++ b) mid = _
      rw [ih]
      simp only [List.length_cons]
      rw [show t + (a.length + 1) = t + 1 + a.length by omega]
      rfl

end Bind

section Invariant

/-- Column invariant kept by the loop. -/
def ColOK (fl : K → K) (n : Nat) (c : StratCol K) : Prop :=
  n ≤ c.ice.length ∧ n ≤ c.ej.length ∧ (∀ x ∈ c.ice, 0 ≤ x) ∧ (∀ x ∈ c.ice, Repr fl x)

variable [IsStrictOrderedRing K]

theorem entryLoses_refl {cols : PyDict (StratCol K)} (h : ∀ p ∈ cols, ∀ x ∈ p.2.ice, 0 ≤ x) :
    List.Forall₂ EntryLoses cols cols := by
  rw [List.forall₂_same]
  intro p hp
  exact ⟨rfl, rfl, rfl, onlyLoses_refl (h p hp)⟩

theorem entryLoses_trans {a b c : PyDict (StratCol K)} (h1 : List.Forall₂ EntryLoses a b)
    (h2 : List.Forall₂ EntryLoses b c) : List.Forall₂ EntryLoses a c := by
  induction h1 generalizing c with
  | nil => cases h2; exact .nil
  | cons hab _ ih =>
    cases h2 with
    | cons hbc h2 =>
      refine .cons ⟨hab.1.trans hbc.1, hbc.2.1.trans hab.2.1, hbc.2.2.1.trans hab.2.2.1,
        onlyLoses_trans hab.2.2.2 hbc.2.2.2⟩ (ih h2)

theorem keys_eq_of_forall₂ {a b : PyDict (StratCol K)} (h : List.Forall₂ EntryLoses a b) :
    a.map (·.1) = b.map (·.1) := by
  induction h with
  | nil => rfl
  | cons hab _ ih => simp [hab.1, ih]

theorem mem_set {α : Type} {d : PyDict α} {k : String} {v : α} {p : String × α}
    (h : p ∈ d.set k v) : p ∈ d ∨ p = (k, v) := by
  induction d with
  | nil => right; simpa [PyDict.set] using h
  | cons q rest ih =>
    obtain ⟨k₁, v₁⟩ := q
    rw [PyDict.set] at h
    split at h
    · rcases List.mem_cons.1 h with h | h
      · right; exact h
      · left; exact List.mem_cons_of_mem _ h
    · rcases List.mem_cons.1 h with h | h
      · left; rw [h]; simp
      · rcases ih h with h | h
        · left; exact List.mem_cons_of_mem _ h
        · right; exact h

theorem updateTraps_ok {fl : K → K} (hfl : Rounding fl) (shield : K) (costello : Bool)
    {bsD bsF : List (List K)} {t : Nat} {ov : K} {n : Nat} (hov : Repr fl ov)
    (hD : ∀ row ∈ bsD, ∀ x ∈ row, Repr fl x) (hF : ∀ row ∈ bsF, ∀ x ∈ row, 0 ≤ x ∧ x ≤ 1)
    (htn : t < n) (htD : t < bsD.length) (htF : t < bsF.length) :
    ∀ (names : List String) (i : Nat) (cols : PyDict (StratCol K)),
      (∀ row ∈ bsD, i + names.length ≤ row.length) →
      (∀ row ∈ bsF, i + names.length ≤ row.length) →
      (∀ p ∈ cols, ColOK fl n p.2) → (∀ name ∈ names, name ∈ cols.map (·.1)) →
      ∃ cols', updateTraps fl shield costello bsD bsF t ov i names cols = .ok cols' ∧
        List.Forall₂ EntryLoses cols cols' ∧ ∀ p ∈ cols', ColOK fl n p.2 := by
  intro names
  induction names with
  | nil =>
    intro i cols _ _ hok _
    exact ⟨cols, rfl, entryLoses_refl (fun p hp => (hok p hp).2.2.1), hok⟩
  | cons name rest ih =>
    intro i cols hlD hlF hok hnames
    obtain ⟨c, hc⟩ := PyDict.get_of_key (hnames name (by simp))
    have hcOK := hok _ (PyDict.mem_of_get hc)
    obtain ⟨d, hd⟩ := pyGet2_total (i := i) htD (fun row hr => by
      have := hlD row hr; simp at this; omega)
    obtain ⟨f, hf⟩ := pyGet2_total (i := i) htF (fun row hr => by
      have := hlF row hr; simp at this; omega)
    have hdr : Repr fl d := by
      obtain ⟨row, h1, h2⟩ := pyGet2_mem hd; exact hD row h1 d h2
    have hff : 0 ≤ f ∧ f ≤ 1 := by
      obtain ⟨row, h1, h2⟩ := pyGet2_mem hf; exact hF row h1 f h2
    obtain ⟨ice, hice⟩ := updateIceCol_total fl shield costello c.ice c.ej t ov d f
      (by have := hcOK.1; dsimp at this; omega) (by have := hcOK.2.1; dsimp at this; omega)
    rw [updateTraps_of hc hd hf hice]
    have hsafe := updateIceCol_safe hfl hov hdr hff.1 hff.2 hcOK.2.2.1 hcOK.2.2.2 hice
    have hlen := (updateIceCol_frame hice).1
    have hset := PyDict.forall₂_set (R := fun a b => b.ej = a.ej ∧ b.src = a.src ∧
        OnlyLosesIce a.ice b.ice) (d := cols) (k := name) (v' := { c with ice := ice })
        (fun p hp => ⟨rfl, rfl, onlyLoses_refl (hok p hp).2.2.1⟩) hc ⟨rfl, rfl, hsafe.1⟩
    have hset' : List.Forall₂ EntryLoses cols (cols.set name { c with ice := ice }) := hset
    have hok' : ∀ p ∈ cols.set name { c with ice := ice }, ColOK fl n p.2 := by
      intro p hp
      rcases mem_set hp with hp | rfl
      · exact hok p hp
      · refine ⟨?_, hcOK.2.1, onlyLoses_nonneg hsafe.1, hsafe.2⟩
        show n ≤ ice.length
        rw [hlen]; exact hcOK.1
    obtain ⟨cols', h1, h2, h3⟩ := ih (i + 1) (cols.set name { c with ice := ice })
      (fun row hr => by have := hlD row hr; simp at this; omega)
      (fun row hr => by have := hlF row hr; simp at this; omega) hok'
      (fun nm hnm => by
        rw [← keys_eq_of_forall₂ hset']
        exact hnames nm (by simp [hnm]))
    exact ⟨cols', h1, entryLoses_trans hset' h2, h3⟩

theorem updateFrom_ok {fl : K → K} (hfl : Rounding fl) (shield : K) (costello : Bool)
    {names : List String} {bsD bsF : List (List K)} {n : Nat}
    (hD : ∀ row ∈ bsD, ∀ x ∈ row, Repr fl x) (hF : ∀ row ∈ bsF, ∀ x ∈ row, 0 ≤ x ∧ x ≤ 1)
    (hlD : ∀ row ∈ bsD, names.length ≤ row.length) (hlF : ∀ row ∈ bsF, names.length ≤ row.length)
    (hnD : n ≤ bsD.length) (hnF : n ≤ bsF.length) :
    ∀ (ovs : List K) (t : Nat) (cols : PyDict (StratCol K)), t + ovs.length ≤ n →
      (∀ ov ∈ ovs, Repr fl ov) →
      (∀ p ∈ cols, ColOK fl n p.2) → (∀ name ∈ names, name ∈ cols.map (·.1)) →
      ∃ cols', updateStratColsFrom fl shield costello names bsD bsF t ovs cols = .ok cols' ∧
        List.Forall₂ EntryLoses cols cols' ∧ ∀ p ∈ cols', ColOK fl n p.2 := by
  intro ovs
  induction ovs with
  | nil =>
    intro t cols _ _ hok _
    exact ⟨cols, rfl, entryLoses_refl (fun p hp => (hok p hp).2.2.1), hok⟩
  | cons ov rest ih =>
    intro t cols hlen hrep hok hnames
    simp only [List.length_cons] at hlen
    obtain ⟨mid, h1, h2, h3⟩ := updateTraps_ok hfl shield costello (t := t) (ov := ov)
      (hrep ov (by simp)) hD hF (by omega : t < n) (by omega) (by omega) names 0 cols
      (fun row hr => by have := hlD row hr; omega) (fun row hr => by have := hlF row hr; omega)
      hok hnames
    obtain ⟨cols', h4, h5, h6⟩ := ih (t + 1) mid (by omega) (fun o ho => hrep o (by simp [ho])) h3
      (fun nm hnm => by rw [← keys_eq_of_forall₂ h2]; exact hnames nm hnm)
    refine ⟨cols', ?_, entryLoses_trans h2 h5, h6⟩
    rw [updateStratColsFrom, h1]
    exact h4

end Invariant

section Truncation

theorem take_set_lt {α : Type} (l : List α) (n k : Nat) (x : α) :
    (l.set k x).take n = (l.take n).set k x := List.take_set

theorem gardenLoop_take (fl : K → K) (ej : List K) (depth eff : K) (n : Nat) :
    ∀ (k : Nat) (d : K) (ice : List K), k ≤ n →
      gardenLoop fl (ej.take n) depth eff (2 * k) d (ice.take n) =
        (gardenLoop fl ej depth eff (2 * k) d ice).map (List.take n) := by
  intro k
  induction k with
  | zero => intro d ice _; rfl
  | succ k ih =>
    intro d ice hk
    rw [gardenLoop_layer, gardenLoop_layer]
    have e1 : (ej.take n)[k]? = ej[k]? := List.getElem?_take_of_lt (by omega)
    have e2 : (ice.take n)[k]? = ice[k]? := List.getElem?_take_of_lt (by omega)
    rw [e1, e2]
    split
    · cases ej[k]? with
      | none => rfl
      | some e =>
        dsimp only
        split
        · cases ice[k]? with
          | none => rfl
          | some x =>
            dsimp only
            rw [← take_set_lt, ih _ _ (by omega)]
        · rfl
    · rfl

theorem erodeLoop_take (fl : K → K) (t base : Int) (n : Nat) :
    ∀ (k : Nat) (ed : K) (ice : List K), k ≤ n →
      erodeLoop fl t base k ed (ice.take n) = (erodeLoop fl t base k ed ice).map (List.take n) := by
  intro k
  induction k with
  | zero => intro d ice _; rfl
  | succ k ih =>
    intro d ice hk
    rw [erodeLoop, erodeLoop]
    have e2 : (ice.take n)[k]? = ice[k]? := List.getElem?_take_of_lt (by omega)
    rw [e2]
    split
    · split
      · cases ice[k]? with
        | none => rfl
        | some x =>
          dsimp only
          rw [← take_set_lt, ih _ _ (by omega)]
      · rfl
    · rfl

theorem erosionBase_take (ej : List K) (t n : Nat) (s : K) (h : t < n) :
    erosionBase (ej.take n) t s = erosionBase ej t s := by
  have hs : shieldIdx (ej.take n) t s = shieldIdx ej t s := by
    unfold shieldIdx
    have e1 : (ej.take n).take (t + 1) = ej.take (t + 1) := by
      rw [List.take_take]; congr 1; omega
    rw [e1]
    apply List.filter_congr
    intro j hj
    rw [List.mem_range, List.length_take] at hj
    rw [List.getElem?_take_of_lt (by omega)]
  unfold erosionBase
  rw [hs]

theorem updateIceCol_take (fl : K → K) (shield : K) (costello : Bool) (ice ej : List K)
    (t n : Nat) (ov bd bf : K) (h : t < n) :
    updateIceCol fl shield costello (ice.take n) (ej.take n) t ov bd bf =
      (updateIceCol fl shield costello ice ej t ov bd bf).map (List.take n) := by
  unfold updateIceCol
  have e1 : gardenIceColumn fl (ice.take n) (ej.take n) ((t : Int) - 1) bd bf =
      (gardenIceColumn fl ice ej ((t : Int) - 1) bd bf).map (List.take n) := by
    unfold gardenIceColumn
    rw [garden_turns', gardenLoop_take _ _ _ _ _ _ _ _ (by omega)]
  rw [e1]
  cases gardenIceColumn fl ice ej ((t : Int) - 1) bd bf with
  | error e => rfl
  | ok i1 =>
    show removeIceOverturn fl shield costello (i1.take n) (ej.take n) t ov =
      (removeIceOverturn fl shield costello i1 ej t ov).map (List.take n)
    unfold removeIceOverturn
    split
    · unfold gardenIceColumn
      rw [garden_turns', gardenLoop_take _ _ _ _ _ _ _ _ (by omega)]
    · unfold erodeIceCannon
      rw [erosionBase_take _ _ _ _ h, erodeLoop_take _ _ _ _ _ _ _ (by omega)]

theorem get_map {α β : Type} (f : α → β) (d : PyDict α) (k : String) :
    PyDict.get (d.map (fun p => (p.1, f p.2))) k = (PyDict.get d k).map f := by
  induction d with
  | nil => rfl
  | cons p rest ih =>
    obtain ⟨k', v⟩ := p
    simp only [List.map_cons, PyDict.get]
    split
    · rfl
    · exact ih

theorem set_map {α β : Type} (f : α → β) (d : PyDict α) (k : String) (v : α) :
    PyDict.set (d.map (fun p => (p.1, f p.2))) k (f v) =
      (PyDict.set d k v).map (fun p => (p.1, f p.2)) := by
  induction d with
  | nil => rfl
  | cons p rest ih =>
    obtain ⟨k', v'⟩ := p
    simp only [List.map_cons, PyDict.set]
    split
    · rfl
    · simp [ih]

theorem updateTraps_trunc (fl : K → K) (shield : K) (costello : Bool) (bsD bsF : List (List K))
    (t n : Nat) (ov : K) (h : t < n) : ∀ (names : List String) (i : Nat)
    (cols : PyDict (StratCol K)),
    updateTraps fl shield costello bsD bsF t ov i names (truncCols n cols) =
      (updateTraps fl shield costello bsD bsF t ov i names cols).map (truncCols n) := by
  intro names
  induction names with
  | nil => intro i cols; rfl
  | cons name rest ih =>
    intro i cols
    rw [updateTraps, updateTraps]
    unfold truncCols
    rw [get_map]
    cases cols.get name with
    | error e => rfl
    | ok c =>
      cases pyGet2 bsD t i with
      | error e => rfl
      | ok d =>
        cases pyGet2 bsF t i with
        | error e => rfl
        | ok f =>
          simp only [bind, Except.bind, Except.map, StratCol.truncate]
          rw [updateIceCol_take _ _ _ _ _ _ _ _ _ _ h]
          cases updateIceCol fl shield costello c.ice c.ej t ov d f with
          | error e => rfl
          | ok ice =>
            simp only [Except.map]
            have hs := set_map (StratCol.truncate n) cols name { c with ice := ice }
            simp only [StratCol.truncate] at hs
            rw [hs]
            exact ih (i + 1) (cols.set name { c with ice := ice })

theorem updateFrom_trunc (fl : K → K) (shield : K) (costello : Bool) (names : List String)
    (bsD bsF : List (List K)) (n : Nat) : ∀ (ovs : List K) (t : Nat)
    (cols : PyDict (StratCol K)), t + ovs.length ≤ n →
    updateStratColsFrom fl shield costello names bsD bsF t ovs (truncCols n cols) =
      (updateStratColsFrom fl shield costello names bsD bsF t ovs cols).map (truncCols n) := by
  intro ovs
  induction ovs with
  | nil => intro t cols _; rfl
  | cons ov rest ih =>
    intro t cols hlen
    simp only [List.length_cons] at hlen
    rw [updateStratColsFrom, updateStratColsFrom,
      updateTraps_trunc _ _ _ _ _ _ _ _ (by omega)]
    cases updateTraps fl shield costello bsD bsF t ov 0 names cols with
    | error e => rfl
    | ok mid => exact ih (t + 1) mid (by omega)

end Truncation

section Alone

theorem updateTraps_get_other {fl : K → K} {shield : K} {costello : Bool}
    {bsD bsF : List (List K)} {t : Nat} {ov : K} : ∀ {names : List String} {i : Nat}
    {cols cols' : PyDict (StratCol K)} {name : String}, name ∉ names →
    updateTraps fl shield costello bsD bsF t ov i names cols = .ok cols' →
    cols'.get name = cols.get name := by
  intro names
  induction names with
  | nil => intro i cols cols' name _ h; cases h; rfl
  | cons nm rest ih =>
    intro i cols cols' name hn h
    obtain ⟨c, d, f, ice, _, _, _, _, h5⟩ := updateTraps_cons h
    rw [ih (by simp at hn; exact hn.2) h5]
    exact PyDict.get_set_ne _ _ (by simp at hn; exact fun h => hn.1 h.symm)

/-- In one timestep, the entry of the `j`-th cold trap is updated exactly once,
with its own sedimentation entries. -/
theorem updateTraps_get {fl : K → K} {shield : K} {costello : Bool}
    {bsD bsF : List (List K)} {t : Nat} {ov : K} : ∀ {names : List String} {i : Nat}
    {cols cols' : PyDict (StratCol K)} {j : Nat} {name : String}, names.Nodup →
    names[j]? = some name →
    updateTraps fl shield costello bsD bsF t ov i names cols = .ok cols' →
    ∃ c d f ice, cols.get name = .ok c ∧ pyGet2 bsD t (i + j) = .ok d ∧
      pyGet2 bsF t (i + j) = .ok f ∧
      updateIceCol fl shield costello c.ice c.ej t ov d f = .ok ice ∧
      cols'.get name = .ok { c with ice := ice } := by
  intro names
  induction names with
  | nil => intro i cols cols' j name _ hj; simp at hj
  | cons nm rest ih =>
    intro i cols cols' j name hnd hj h
    obtain ⟨c, d, f, ice, h1, h2, h3, h4, h5⟩ := updateTraps_cons h
    rw [List.nodup_cons] at hnd
    cases j with
    | zero =>
      simp at hj; subst hj
      refine ⟨c, d, f, ice, h1, h2, h3, h4, ?_⟩
      rw [updateTraps_get_other hnd.1 h5, PyDict.get_set_self]
    | succ j =>
      simp at hj
      obtain ⟨c', d', f', ice', g1, g2, g3, g4, g5⟩ := ih hnd.2 hj h5
      have hne : nm ≠ name := by
        rintro rfl
        exact hnd.1 (List.mem_of_getElem? hj)
      rw [PyDict.get_set_ne _ _ hne] at g1
      refine ⟨c', d', f', ice', g1, ?_, ?_, g4, g5⟩
      · rw [show i + (j + 1) = i + 1 + j by omega]; exact g2
      · rw [show i + (j + 1) = i + 1 + j by omega]; exact g3

end Alone

end MoonPIES
