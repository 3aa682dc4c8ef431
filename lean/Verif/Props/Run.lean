import Mathlib.Algebra.Order.Ring.Rat
import Verif.Lemmas.Run
import Verif.Props.Garden
import Verif.Props.Cannon

/-!
# C09-C13, C73: the main time loop (`update_strat_cols`)
-/

namespace MoonPIES

open Spec

set_option linter.unusedSectionVars false

variable {K : Type} [Field K] [LinearOrder K] [IsStrictOrderedRing K]

/-! A concrete run used to exercise the theorems: two cold traps, three
timesteps, ballistic sedimentation in the second trap. -/

/-- Example cold traps. -/
def exCols : PyDict (StratCol ℚ) :=
  [("Faustini", ⟨[2, 1, 3], [0, 0, 1 / 2], ["", "", "Shackleton"]⟩),
   ("Haworth", ⟨[1, 1, 1], [0, 2, 0], ["", "Cabeus", ""]⟩)]
/-- Example overturn depths. -/
def exOv : List ℚ := [1 / 2, 1, 3 / 2]
/-- Example sedimentation depths. -/
def exBd : List (List ℚ) := [[0, 0], [0, 3], [0, 0]]
/-- Example sedimentation fractions. -/
def exBf : List (List ℚ) := [[0, 0], [0, 1 / 2], [0, 0]]

theorem exWF : WellFormed (fun x => x) ["Faustini", "Haworth"] exCols exOv exBd exBf := by
  constructor
  · decide
  · decide
  · decide
  · decide +kernel
  · exact fun _ _ _ _ => rfl
  · exact fun _ _ => rfl
  · decide
  · decide
  · decide
  · decide
  · exact fun _ _ _ _ => rfl
  · decide +kernel

/-- **C09** For every number of timesteps and cold traps, both gardening models,
every rounding: the time loop succeeds, every layer of every cold trap ends
between 0 and the ice delivered to it, and names, ejecta and sources are
unchanged. -/
theorem C09_run_only_loses {fl : K → K} (hfl : Rounding fl) (shield : K) (costello : Bool)
    (names : List String) (cols : PyDict (StratCol K)) (overturn : List K)
    (bsedDepth bsedFrac : List (List K))
    (wf : WellFormed fl names cols overturn bsedDepth bsedFrac) :
    ∃ cols', updateStratCols fl shield costello names cols overturn bsedDepth bsedFrac = .ok cols' ∧
      List.Forall₂ (fun p p' => p.1 = p'.1 ∧ p'.2.ej = p.2.ej ∧ p'.2.src = p.2.src ∧
        OnlyLosesIce p.2.ice p'.2.ice) cols cols' := by
  obtain ⟨cols', h1, h2, _⟩ := updateFrom_ok hfl shield costello (n := overturn.length)
    wf.depthRepr wf.fracRange wf.depthCols wf.fracCols wf.depthRows wf.fracRows overturn 0 cols
    (by omega) wf.overturnRepr
    (fun p hp => ⟨wf.iceLength p hp, wf.ejLength p hp, wf.iceNonneg p hp, wf.iceRepr p hp⟩)
    wf.hasTraps
  exact ⟨cols', h1, h2⟩

/-- C09 applies to the example run, in which ice is really lost. -/
example : WellFormed (fun x => x) ["Faustini", "Haworth"] exCols exOv exBd exBf ∧
    (updateStratCols (fun x => x) (2 / 5) true ["Faustini", "Haworth"] exCols exOv
      exBd exBf).map (fun c => c.map (·.2.ice)) = .ok [[1 / 2, 0, 2], [1 / 4, 1, 0]] ∧
    (updateStratCols (fun x => x) (2 / 5) false ["Faustini", "Haworth"] exCols exOv
      exBd exBf).map (fun c => c.map (·.2.ice)) = .ok [[3 / 2, 0, 3], [1 / 4, 1 / 2, 0]] :=
  ⟨exWF, by decide +kernel, by decide +kernel⟩

/-- **C10** (what the past determines) Processing the first `n` timesteps of
inputs that agree on their first `n` timesteps gives columns that agree on
their first `n` layers (including whether an exception is raised). -/
theorem C10_causality (fl : K → K) (shield : K) (costello : Bool) (names : List String) (n : Nat)
    (cols₁ cols₂ : PyDict (StratCol K)) (ov₁ ov₂ : List K) (bd₁ bd₂ bf₁ bf₂ : List (List K))
    (hcols : truncCols n cols₁ = truncCols n cols₂) (hov : ov₁.take n = ov₂.take n)
    (hbd : bd₁.take n = bd₂.take n) (hbf : bf₁.take n = bf₂.take n) :
    (updateStratCols fl shield costello names cols₁ (ov₁.take n) bd₁ bf₁).map (truncCols n) =
    (updateStratCols fl shield costello names cols₂ (ov₂.take n) bd₂ bf₂).map (truncCols n) := by
  have hget : ∀ {m₁ m₂ : List (List K)}, m₁.take n = m₂.take n → ∀ t i, t < n →
      pyGet2 m₁ t i = pyGet2 m₂ t i := by
    intro m₁ m₂ hm t i ht
    unfold pyGet2 pyGet
    have : m₁[t]? = m₂[t]? := by
      rw [← List.getElem?_take_of_lt (l := m₁) ht, hm, List.getElem?_take_of_lt ht]
    rw [this]
  have htraps : ∀ (names' : List String) (t i : Nat) (ov : K) (cols : PyDict (StratCol K)), t < n →
      updateTraps fl shield costello bd₁ bf₁ t ov i names' cols =
      updateTraps fl shield costello bd₂ bf₂ t ov i names' cols := by
    intro names'
    induction names' with
    | nil => intros; rfl
    | cons nm rest ih =>
      intro t i ov cols ht
      rw [updateTraps, updateTraps, hget hbd t i ht, hget hbf t i ht]
      simp only [ih t _ ov _ ht]
  have hfrom : ∀ (ovs : List K) (t : Nat) (cols : PyDict (StratCol K)), t + ovs.length ≤ n →
      updateStratColsFrom fl shield costello names bd₁ bf₁ t ovs cols =
      updateStratColsFrom fl shield costello names bd₂ bf₂ t ovs cols := by
    intro ovs
    induction ovs with
    | nil => intros; rfl
    | cons ov rest ih =>
      intro t cols ht
      simp only [List.length_cons] at ht
      rw [updateStratColsFrom, updateStratColsFrom, htraps _ _ _ _ _ (by omega)]
      cases updateTraps fl shield costello bd₂ bf₂ t ov 0 names cols with
      | error e => rfl
      | ok mid => exact ih (t + 1) mid (by omega)
  have hl : 0 + (ov₂.take n).length ≤ n := by simp
  unfold updateStratCols
  rw [hov, hfrom _ _ _ hl, ← updateFrom_trunc _ _ _ _ _ _ _ _ _ _ hl,
    ← updateFrom_trunc _ _ _ _ _ _ _ _ _ _ hl, hcols]

theorem updateTraps_frame {fl : K → K} {shield : K} {costello : Bool}
    {bsD bsF : List (List K)} {t : Nat} {ov : K} : ∀ {names : List String} {i : Nat}
    {cols cols' : PyDict (StratCol K)},
    updateTraps fl shield costello bsD bsF t ov i names cols = .ok cols' →
    List.Forall₂ (fun p p' => p.1 = p'.1 ∧ ∀ i : Nat, t < i → p'.2.ice[i]? = p.2.ice[i]?)
      cols cols' := by
  intro names
  induction names with
  | nil =>
    intro i cols cols' h
    cases h
    rw [List.forall₂_same]; exact fun _ _ => ⟨rfl, fun _ _ => rfl⟩
  | cons nm rest ih =>
    intro i cols cols' h
    obtain ⟨c, d, f, ice, h1, _, _, h4, h5⟩ := updateTraps_cons h
    have hset := PyDict.forall₂_set
      (R := fun a b => ∀ i : Nat, t < i → b.ice[i]? = a.ice[i]?) (d := cols) (k := nm)
      (v' := { c with ice := ice }) (fun _ _ _ _ => rfl) h1 (updateIceCol_frame h4).2
    have htrans : ∀ {a b c : PyDict (StratCol K)},
        List.Forall₂ (fun p p' => p.1 = p'.1 ∧ ∀ i : Nat, t < i → p'.2.ice[i]? = p.2.ice[i]?) a b →
        List.Forall₂ (fun p p' => p.1 = p'.1 ∧ ∀ i : Nat, t < i → p'.2.ice[i]? = p.2.ice[i]?) b c →
        List.Forall₂ (fun p p' => p.1 = p'.1 ∧ ∀ i : Nat, t < i → p'.2.ice[i]? = p.2.ice[i]?) a c := by
      intro a b c hab
      induction hab generalizing c with
      | nil => intro h; cases h; exact .nil
      | cons hh _ ih' =>
        intro h
        cases h with
        | cons hh' h2 =>
          exact .cons ⟨hh.1.trans hh'.1, fun i hi => (hh'.2 i hi).trans (hh.2 i hi)⟩ (ih' h2)
    exact htrans hset (ih h5)

/-- **C10** (the future is still as delivered) After `n` timesteps, every layer
with index `≥ n` of every cold trap still holds exactly the delivered ice. -/
theorem C10_future_untouched (fl : K → K) (shield : K) (costello : Bool) (names : List String)
    (cols cols' : PyDict (StratCol K)) (overturn : List K) (bsedDepth bsedFrac : List (List K))
    (h : updateStratCols fl shield costello names cols overturn bsedDepth bsedFrac = .ok cols') :
    List.Forall₂ (fun p p' => p.1 = p'.1 ∧
      ∀ i : Nat, overturn.length ≤ i → p'.2.ice[i]? = p.2.ice[i]?) cols cols' := by
  have key : ∀ (ovs : List K) (t : Nat) (cols cols' : PyDict (StratCol K)),
      updateStratColsFrom fl shield costello names bsedDepth bsedFrac t ovs cols = .ok cols' →
      List.Forall₂ (fun p p' => p.1 = p'.1 ∧
        ∀ i : Nat, t + ovs.length ≤ i → p'.2.ice[i]? = p.2.ice[i]?) cols cols' := by
    intro ovs
    induction ovs with
    | nil =>
      intro t cols cols' h
      cases h
      rw [List.forall₂_same]; exact fun _ _ => ⟨rfl, fun _ _ => rfl⟩
    | cons ov rest ih =>
      intro t cols cols' h
      obtain ⟨mid, h1, h2⟩ := updateFrom_cons h
      have a := updateTraps_frame h1
      have b := ih _ _ _ h2
      clear h1 h2 h
      induction a generalizing cols' with
      | nil => cases b; exact .nil
      | cons hh _ ih' =>
        cases b with
        | cons hh' b =>
          refine .cons ⟨hh.1.trans hh'.1, fun i hi => ?_⟩ (ih' _ b)
          simp only [List.length_cons] at hi
          exact (hh'.2 i (by omega)).trans (hh.2 i (by omega))
  have := key overturn 0 cols cols' h
  simpa using this

/-- C10 is used with inputs that differ after the first timestep. -/
example : truncCols 1 exCols = truncCols 1 (exCols.map (fun p =>
    (p.1, { p.2 with ice := p.2.ice.take 1 ++ [7, 7], ej := p.2.ej.take 1, src := p.2.src.take 1 }))) := by
  simp [truncCols, exCols, StratCol.truncate]

theorem pyGet2_colOf {α : Type} (m : List (List α)) (t j : Nat) :
    pyGet2 (colOf j m) t 0 = pyGet2 m t j := by
  unfold pyGet2 colOf pyGet
  rw [List.getElem?_map]
  cases m[t]? with
  | none => rfl
  | some row =>
    have : ((row.drop j).take 1)[0]? = row[j]? := by
      rw [List.getElem?_take_of_lt (by omega), List.getElem?_drop]; simp
    simp only [Option.map_some, bind, Except.bind, this]

/-- **C11** The column computed for one cold trap is the column obtained by
simulating that cold trap alone, with its own ice, ejecta and sedimentation. -/
theorem C11_trap_alone (fl : K → K) (shield : K) (costello : Bool) (names : List String)
    (hnd : names.Nodup) (cols cols' : PyDict (StratCol K)) (overturn : List K)
    (bsedDepth bsedFrac : List (List K))
    (h : updateStratCols fl shield costello names cols overturn bsedDepth bsedFrac = .ok cols')
    (j : Nat) (name : String) (hj : names[j]? = some name) (c : StratCol K)
    (hc : cols.get name = .ok c) :
    ∃ c', cols'.get name = .ok c' ∧
      updateStratCols fl shield costello [name] [(name, c)] overturn
        (colOf j bsedDepth) (colOf j bsedFrac) = .ok [(name, c')] := by
  have key : ∀ (ovs : List K) (t : Nat) (cols cols' : PyDict (StratCol K)) (c : StratCol K),
      updateStratColsFrom fl shield costello names bsedDepth bsedFrac t ovs cols = .ok cols' →
      cols.get name = .ok c →
      ∃ c', cols'.get name = .ok c' ∧
        updateStratColsFrom fl shield costello [name] (colOf j bsedDepth) (colOf j bsedFrac)
          t ovs [(name, c)] = .ok [(name, c')] := by
    intro ovs
    induction ovs with
    | nil => intro t cols cols' c h hc; cases h; exact ⟨c, hc, rfl⟩
    | cons ov rest ih =>
      intro t cols cols' c h hc
      obtain ⟨mid, h1, h2⟩ := updateFrom_cons h
      obtain ⟨c₁, d, f, ice, g1, g2, g3, g4, g5⟩ := updateTraps_get hnd hj h1
      rw [hc] at g1; cases g1
      obtain ⟨c', k1, k2⟩ := ih (t + 1) mid cols' _ h2 g5
      refine ⟨c', k1, ?_⟩
      rw [Nat.zero_add] at g2 g3
      have e1 : PyDict.get [(name, c)] name = .ok c := by simp [PyDict.get]
      have e2 : PyDict.set [(name, c)] name { c with ice := ice } = [(name, { c with ice := ice })] := by
        simp [PyDict.set]
      rw [updateStratColsFrom, updateTraps_of e1 (by rw [pyGet2_colOf]; exact g2)
        (by rw [pyGet2_colOf]; exact g3) g4, e2]
      exact k2
  exact key overturn 0 cols cols' c h hc

/-- **C11** Two runs with different sets or orders of cold traps agree on every
cold trap that has the same inputs in both. -/
theorem C11_order_irrelevant (fl : K → K) (shield : K) (costello : Bool)
    (names₁ names₂ : List String) (hnd₁ : names₁.Nodup) (hnd₂ : names₂.Nodup)
    (cols₁ cols₂ cols₁' cols₂' : PyDict (StratCol K)) (overturn : List K)
    (bd₁ bd₂ bf₁ bf₂ : List (List K))
    (h₁ : updateStratCols fl shield costello names₁ cols₁ overturn bd₁ bf₁ = .ok cols₁')
    (h₂ : updateStratCols fl shield costello names₂ cols₂ overturn bd₂ bf₂ = .ok cols₂')
    (name : String) (j₁ j₂ : Nat) (hj₁ : names₁[j₁]? = some name) (hj₂ : names₂[j₂]? = some name)
    (c : StratCol K) (hc₁ : cols₁.get name = .ok c) (hc₂ : cols₂.get name = .ok c)
    (hbd : colOf j₁ bd₁ = colOf j₂ bd₂) (hbf : colOf j₁ bf₁ = colOf j₂ bf₂) :
    cols₁'.get name = cols₂'.get name := by
  obtain ⟨c₁, a1, b1⟩ := C11_trap_alone fl shield costello names₁ hnd₁ cols₁ cols₁' overturn bd₁ bf₁
    h₁ j₁ name hj₁ c hc₁
  obtain ⟨c₂, a2, b2⟩ := C11_trap_alone fl shield costello names₂ hnd₂ cols₂ cols₂' overturn bd₂ bf₂
    h₂ j₂ name hj₂ c hc₂
  rw [hbd, hbf, b2] at b1
  simp only [Except.ok.injEq, List.cons.injEq, Prod.mk.injEq, true_and, and_true] at b1
  rw [a1, a2, b1]

/-- C11 on the example: the second cold trap, alone. -/
example : (updateStratCols (fun x => x) (2 / 5) true ["Haworth"]
      [("Haworth", ⟨[1, 1, 1], [0, 2, 0], ["", "Cabeus", ""]⟩)] exOv
      (colOf 1 exBd) (colOf 1 exBf)).map (fun c => c.map (·.2.ice)) = .ok [[1 / 4, 1, 0]] := by
  decide +kernel

/-- **C12** Stopping after `n₁` timesteps or after `n₂ ≥ n₁`: between the two,
every layer of every cold trap only loses ice. -/
theorem C12_never_regained {fl : K → K} (hfl : Rounding fl) (shield : K) (costello : Bool)
    (names : List String) (cols r₁ r₂ : PyDict (StratCol K)) (overturn : List K)
    (bsedDepth bsedFrac : List (List K))
    (wf : WellFormed fl names cols overturn bsedDepth bsedFrac)
    (n₁ n₂ : Nat) (hn : n₁ ≤ n₂)
    (h₁ : updateStratCols fl shield costello names cols (overturn.take n₁) bsedDepth bsedFrac
      = .ok r₁)
    (h₂ : updateStratCols fl shield costello names cols (overturn.take n₂) bsedDepth bsedFrac
      = .ok r₂) :
    List.Forall₂ (fun p p' => p.1 = p'.1 ∧ p'.2.ej = p.2.ej ∧ p'.2.src = p.2.src ∧
      OnlyLosesIce p.2.ice p'.2.ice) r₁ r₂ := by
  have hok : ∀ p ∈ cols, ColOK fl overturn.length p.2 := fun p hp =>
    ⟨wf.iceLength p hp, wf.ejLength p hp, wf.iceNonneg p hp, wf.iceRepr p hp⟩
  obtain ⟨s₁, a1, a2, a3⟩ := updateFrom_ok hfl shield costello (n := overturn.length)
    wf.depthRepr wf.fracRange wf.depthCols wf.fracCols wf.depthRows wf.fracRows
    (overturn.take n₁) 0 cols (by simp)
    (fun x hx => wf.overturnRepr x (List.mem_of_mem_take hx)) hok wf.hasTraps
  unfold updateStratCols at h₁ h₂
  rw [h₁] at a1; cases a1
  have hsplit : overturn.take n₂ = overturn.take n₁ ++ (overturn.take n₂).drop n₁ := by
    have h3 := List.take_append_drop n₁ (overturn.take n₂)
    rw [List.take_take, min_eq_left hn] at h3
    exact h3.symm
  rw [hsplit, updateFrom_append, h₁] at h₂
  simp only [Except.bind] at h₂
  obtain ⟨s₂, b1, b2, _⟩ := updateFrom_ok hfl shield costello (n := overturn.length)
    wf.depthRepr wf.fracRange wf.depthCols wf.fracCols wf.depthRows wf.fracRows
    ((overturn.take n₂).drop n₁) (0 + (overturn.take n₁).length) r₁
    (by simp; omega)
    (fun x hx => wf.overturnRepr x (List.mem_of_mem_take (List.mem_of_mem_drop hx))) a3
    (fun nm hnm => by rw [← keys_eq_of_forall₂ a2]; exact wf.hasTraps nm hnm)
  rw [h₂] at b1; cases b1
  exact b2

/-- **C12** Once a layer is empty it stays empty. -/
theorem C12_empty_stays_empty {fl : K → K} (hfl : Rounding fl) (shield : K) (costello : Bool)
    (names : List String) (cols r₁ r₂ : PyDict (StratCol K)) (overturn : List K)
    (bsedDepth bsedFrac : List (List K))
    (wf : WellFormed fl names cols overturn bsedDepth bsedFrac)
    (n₁ n₂ : Nat) (hn : n₁ ≤ n₂)
    (h₁ : updateStratCols fl shield costello names cols (overturn.take n₁) bsedDepth bsedFrac
      = .ok r₁)
    (h₂ : updateStratCols fl shield costello names cols (overturn.take n₂) bsedDepth bsedFrac
      = .ok r₂)
    (k : Nat) (p p' : String × StratCol K) (hp : r₁[k]? = some p) (hp' : r₂[k]? = some p')
    (i : Nat) (hz : p.2.ice[i]? = some 0) : p'.2.ice[i]? = some 0 := by
  have h := C12_never_regained hfl shield costello names cols r₁ r₂ overturn bsedDepth bsedFrac wf
    n₁ n₂ hn h₁ h₂
  have hk := (forall₂_iff_getElem?.1 h).2 k p p' hp hp'
  have hi := forall₂_iff_getElem?.1 hk.2.2.2
  have hlt : i < p'.2.ice.length := by
    rw [← hi.1]; exact (List.getElem?_eq_some_iff.1 hz).1
  have he : p'.2.ice[i]? = some p'.2.ice[i] := List.getElem?_eq_getElem hlt
  have := hi.2 i 0 _ hz he
  rw [he, le_antisymm this.2 this.1]

/-- C12 on the example: between one and three timesteps layer 0 of both traps shrinks. -/
example :
    (updateStratCols (fun x => x) (2 / 5) true ["Faustini", "Haworth"] exCols
      (exOv.take 1) exBd exBf).map (fun c => c.map (·.2.ice)) =
        .ok [[3 / 2, 1, 3], [1 / 2, 1, 1]] ∧
    (updateStratCols (fun x => x) (2 / 5) true ["Faustini", "Haworth"] exCols
      (exOv.take 3) exBd exBf).map (fun c => c.map (·.2.ice)) =
        .ok [[1 / 2, 0, 2], [1 / 4, 1, 0]] := by
  constructor <;> decide +kernel

/-- **C13** Ballistic sedimentation in the first timestep never changes a layer:
the step does not depend on the sedimentation depth or fraction. -/
theorem C13_first_step (fl : K → K) (shield : K) (costello : Bool) (ice ej : List K)
    (ov bd bd' bf bf' : K) :
    updateIceCol fl shield costello ice ej 0 ov bd bf =
      updateIceCol fl shield costello ice ej 0 ov bd' bf' := rfl

/-- Gardening only: the loop a reader would write if there were no ballistic
sedimentation. -/
def overturnOnly (fl : K → K) (shield : K) (costello : Bool) (ej : List K) :
    Nat → List K → List K → Except PyErr (List K)
  | _, [], ice => .ok ice
  | t, ov :: rest, ice => (removeIceOverturn fl shield costello ice ej t ov).bind
      (overturnOnly fl shield costello ej (t + 1) rest)

/-- **C13** With sedimentation depth `≤ 0` everywhere, each cold trap evolves by
impact gardening only, whatever the melt fractions are. -/
theorem C13_no_sedimentation (fl : K → K) (shield : K) (costello : Bool) (names : List String)
    (hnd : names.Nodup) (cols cols' : PyDict (StratCol K)) (overturn : List K)
    (bsedDepth bsedFrac : List (List K))
    (hzero : ∀ row ∈ bsedDepth, ∀ x ∈ row, x ≤ 0)
    (h : updateStratCols fl shield costello names cols overturn bsedDepth bsedFrac = .ok cols')
    (name : String) (hname : name ∈ names) (c : StratCol K) (hc : cols.get name = .ok c) :
    ∃ c', cols'.get name = .ok c' ∧ c'.ej = c.ej ∧ c'.src = c.src ∧
      overturnOnly fl shield costello c.ej 0 overturn c.ice = .ok c'.ice := by
  obtain ⟨j, hj⟩ := List.mem_iff_getElem?.1 hname
  have key : ∀ (ovs : List K) (t : Nat) (cols cols' : PyDict (StratCol K)) (c : StratCol K),
      updateStratColsFrom fl shield costello names bsedDepth bsedFrac t ovs cols = .ok cols' →
      cols.get name = .ok c →
      ∃ c', cols'.get name = .ok c' ∧ c'.ej = c.ej ∧ c'.src = c.src ∧
        overturnOnly fl shield costello c.ej t ovs c.ice = .ok c'.ice := by
    intro ovs
    induction ovs with
    | nil => intro t cols cols' c h hc; cases h; exact ⟨c, hc, rfl, rfl, rfl⟩
    | cons ov rest ih =>
      intro t cols cols' c h hc
      obtain ⟨mid, h1, h2⟩ := updateFrom_cons h
      obtain ⟨c₁, d, f, ice, g1, g2, g3, g4, g5⟩ := updateTraps_get hnd hj h1
      rw [hc] at g1; cases g1
      obtain ⟨c', k1, k2, k3, k4⟩ := ih (t + 1) mid cols' _ h2 g5
      refine ⟨c', k1, k2, k3, ?_⟩
      have hd : d ≤ 0 := by
        obtain ⟨row, hr, hx⟩ := pyGet2_mem g2; exact hzero row hr d hx
      unfold updateIceCol at g4
      rw [C02_garden_no_depth fl c.ice c.ej _ d f hd] at g4
      have g4' : removeIceOverturn fl shield costello c.ice c.ej t ov = .ok ice := g4
      rw [overturnOnly, g4']
      exact k4
  exact key overturn 0 cols cols' c h hc

/-- C13 with non-zero fractions and zero depths. -/
example : (updateStratCols (fun x => x) (2 / 5) true ["Faustini", "Haworth"] exCols exOv
      [[0, 0], [0, 0], [0, 0]] exBf).map (fun c => c.map (·.2.ice)) =
    .ok [[1 / 2, 0, 2], [1 / 2, 1, 0]] := by
  decide +kernel

/-! ## Monotonicity of whole runs -/

/-- Same cold trap, with at least as much ice and ejecta in every layer. -/
def EntryLE (p p' : String × StratCol K) : Prop :=
  p.1 = p'.1 ∧ List.Forall₂ (· ≤ ·) p.2.ice p'.2.ice ∧ List.Forall₂ (· ≤ ·) p.2.ej p'.2.ej

theorem get_forall₂ {α : Type} {R : String × α → String × α → Prop} {a b : PyDict α}
    (hR : ∀ p q, R p q → p.1 = q.1) (h : List.Forall₂ R a b) {k : String} {u v : α}
    (hu : a.get k = .ok u) (hv : b.get k = .ok v) : R (k, u) (k, v) := by
  induction h with
  | nil => cases hu
  | @cons p q a b hpq _ ih =>
    obtain ⟨k₁, v₁⟩ := p
    obtain ⟨k₂, v₂⟩ := q
    have hk := hR _ _ hpq
    simp only at hk
    subst hk
    rw [PyDict.get] at hu hv
    by_cases hk' : k₁ = k
    · rw [if_pos hk'] at hu hv
      cases hu; cases hv; subst hk'; exact hpq
    · rw [if_neg hk'] at hu hv
      exact ih hu hv

theorem set_forall₂ {α : Type} {R : String × α → String × α → Prop} {a b : PyDict α}
    (hR : ∀ p q, R p q → p.1 = q.1) (h : List.Forall₂ R a b) {k : String} {u v : α}
    (huv : R (k, u) (k, v)) : List.Forall₂ R (a.set k u) (b.set k v) := by
  induction h with
  | nil => exact .cons huv .nil
  | @cons p q a b hpq hrest ih =>
    obtain ⟨k₁, v₁⟩ := p
    obtain ⟨k₂, v₂⟩ := q
    have hk := hR _ _ hpq
    simp only at hk
    subst hk
    rw [PyDict.set, PyDict.set]
    by_cases hk' : k₁ = k
    · rw [if_pos hk', if_pos hk']; exact .cons huv hrest
    · rw [if_neg hk', if_neg hk']; exact .cons hpq ih

theorem nonneg_of_forall₂_le {a b : List K} (h : List.Forall₂ (· ≤ ·) a b)
    (ha : ∀ x ∈ a, 0 ≤ x) : ∀ x ∈ b, 0 ≤ x := by
  induction h with
  | nil => simp
  | cons hle _ ih =>
    intro x hx
    rcases List.mem_cons.1 hx with rfl | hx
    · exact (ha _ (by simp)).trans hle
    · exact ih (fun y hy => ha y (by simp [hy])) x hx

theorem erodeLoop_mono {t b₁ b₂ : Int} (hb : b₂ < t → b₁ < t) :
    ∀ (k : Nat) (d₁ d₂ : K) (ice₁ ice₂ r₁ r₂ : List K), (∀ x ∈ ice₁, 0 ≤ x) →
      List.Forall₂ (· ≤ ·) ice₁ ice₂ → d₂ ≤ d₁ →
      erodeLoop (fun x => x) t b₁ k d₁ ice₁ = .ok r₁ →
      erodeLoop (fun x => x) t b₂ k d₂ ice₂ = .ok r₂ → List.Forall₂ (· ≤ ·) r₁ r₂ := by
  intro k
  induction k with
  | zero => intro d₁ d₂ ice₁ ice₂ r₁ r₂ _ h _ e₁ e₂; cases e₁; cases e₂; exact h
  | succ k ih =>
    intro d₁ d₂ ice₁ ice₂ r₁ r₂ h0 h hd e₁ e₂
    -- when nothing is eroded in the second run
    have stop : r₂ = ice₂ → List.Forall₂ (· ≤ ·) r₁ r₂ := by
      rintro rfl
      have hl := (erodeLoop_safe Rounding.id _ _ _ _ _ _ h0 (fun _ _ => rfl) e₁).1
      unfold OnlyLosesIce at hl
      rw [forall₂_iff_getElem?] at hl h ⊢
      refine ⟨by rw [← hl.1, h.1], fun i y z hy hz => ?_⟩
      obtain ⟨x, hx⟩ : ∃ x, ice₁[i]? = some x := by
        have := (List.getElem?_eq_some_iff.1 hy).1
        exact ⟨_, List.getElem?_eq_getElem (by omega)⟩
      exact (hl.2 i x y hx hy).2.trans (h.2 i x z hx hz)
    rw [erodeLoop] at e₂
    by_cases hd₂ : d₂ > 0
    · by_cases hb₂ : t > b₂
      · rw [if_pos hd₂, if_pos hb₂] at e₂
        rw [erodeLoop, if_pos (hd₂.trans_le hd), if_pos (hb hb₂)] at e₁
        cases hx₁ : ice₁[k]? with
        | none => rw [hx₁] at e₁; cases e₁
        | some x₁ =>
          cases hx₂ : ice₂[k]? with
          | none => rw [hx₂] at e₂; cases e₂
          | some x₂ =>
            rw [hx₁] at e₁
            rw [hx₂] at e₂
            simp only at e₁ e₂
            have hx := (forall₂_iff_getElem?.1 h).2 k x₁ x₂ hx₁ hx₂
            have hx0 := h0 x₁ (List.mem_of_getElem? hx₁)
            have hnew : (if x₁ ≥ d₁ then x₁ - d₁ else 0) ≤ (if x₂ ≥ d₂ then x₂ - d₂ else 0) := by
              split_ifs <;> linarith
            have hnew0 : 0 ≤ (if x₁ ≥ d₁ then x₁ - d₁ else 0) := by
              split_ifs <;> linarith
            refine ih _ _ _ _ r₁ r₂ ?_ ?_ (by linarith) e₁ e₂
            · intro y hy
              rcases List.mem_or_eq_of_mem_set hy with hy | rfl
              · exact h0 y hy
              · exact hnew0
            · rw [forall₂_iff_getElem?] at h ⊢
              refine ⟨by simpa using h.1, fun i y z hy hz => ?_⟩
              rw [List.getElem?_set] at hy hz
              by_cases hik : k = i
              · rw [if_pos hik] at hy hz
                split at hy
                · split at hz
                  · cases hy; cases hz; exact hnew
                  · cases hz
                · cases hy
              · rw [if_neg hik] at hy hz
                exact h.2 i y z hy hz
      · rw [if_pos hd₂, if_neg hb₂] at e₂
        injection e₂ with e₂
        exact stop e₂.symm
    · rw [if_neg hd₂] at e₂
      injection e₂ with e₂
      exact stop e₂.symm

theorem updateIceCol_mono {shield : K} {costello : Bool} {ice₁ ice₂ ej₁ ej₂ r₁ r₂ : List K} {t : Nat}
    {ov₁ ov₂ bd₁ bd₂ bf₁ bf₂ : K}
    (hice₁ : ∀ x ∈ ice₁, 0 ≤ x) (hej₁ : ∀ x ∈ ej₁, 0 ≤ x)
    (hice : List.Forall₂ (· ≤ ·) ice₁ ice₂) (hej : List.Forall₂ (· ≤ ·) ej₁ ej₂)
    (hov : ov₂ ≤ ov₁) (hbd : bd₂ ≤ bd₁) (hbf : bf₂ ≤ bf₁) (h0 : 0 ≤ bf₂) (h1 : bf₁ ≤ 1)
    (e₁ : updateIceCol (fun x => x) shield costello ice₁ ej₁ t ov₁ bd₁ bf₁ = .ok r₁)
    (e₂ : updateIceCol (fun x => x) shield costello ice₂ ej₂ t ov₂ bd₂ bf₂ = .ok r₂) :
    List.Forall₂ (· ≤ ·) r₁ r₂ ∧ ∀ x ∈ r₁, 0 ≤ x := by
  obtain ⟨i₁, a₁, b₁⟩ := updateIceCol_split e₁
  obtain ⟨i₂, a₂, b₂⟩ := updateIceCol_split e₂
  have hmid : List.Forall₂ (· ≤ ·) i₁ i₂ := by
    cases t with
    | zero => cases a₁; cases a₂; exact hice
    | succ t =>
      refine C06_garden_monotone ice₁ ice₂ ej₁ ej₂ t bd₁ bd₂ bf₁ bf₂ i₁ i₂ hice₁ hej₁ hice hej
        hbd hbf h0 h1 ?_ ?_
      · unfold gardenIceColumn; rw [toNat_two_mul]; exact a₁
      · unfold gardenIceColumn; rw [toNat_two_mul]; exact a₂
  have hnn := onlyLoses_nonneg (gardenLoop_safe Rounding.id ej₁ rfl (h0.trans hbf) h1 _ _ _ _ hice₁
    (fun _ _ => rfl) a₁).1
  refine ⟨?_, onlyLoses_nonneg (removeIceOverturn_safe Rounding.id rfl hnn (fun _ _ => rfl) b₁).1⟩
  unfold removeIceOverturn at b₁ b₂
  cases costello with
  | true =>
    exact C06_garden_monotone i₁ i₂ ej₁ ej₂ t ov₁ ov₂ 1 1 r₁ r₂ hnn hej₁ hmid hej hov le_rfl
      zero_le_one le_rfl b₁ b₂
  | false =>
    refine erodeLoop_mono (fun hlt => ?_) _ _ _ _ _ _ _ hnn hmid hov b₁ b₂
    rw [erosionBase_lt_iff] at hlt ⊢
    intro e he
    obtain ⟨f, hf⟩ : ∃ f, ej₂[t]? = some f := by
      have h := (List.getElem?_eq_some_iff.1 he).1
      rw [hej.length_eq] at h
      exact ⟨_, List.getElem?_eq_getElem h⟩
    exact ((forall₂_iff_getElem?.1 hej).2 t e f he hf).trans (hlt f hf)

/-- **C73** Whole runs are monotone, with either way of gardening: delivering at least as much
ice and ejecta in every layer, and gardening and sedimenting no deeper and no more
efficiently, leaves at least as much ice in every layer of every cold trap. -/
theorem C73_run_monotone (shield : K) (costello : Bool) (names : List String)
    (cols₁ cols₂ r₁ r₂ : PyDict (StratCol K)) (ov₁ ov₂ : List K)
    (bd₁ bd₂ bf₁ bf₂ : List (List K))
    (hpos : ∀ p ∈ cols₁, (∀ x ∈ p.2.ice, 0 ≤ x) ∧ ∀ x ∈ p.2.ej, 0 ≤ x)
    (hcols : List.Forall₂ (fun p p' => p.1 = p'.1 ∧ List.Forall₂ (· ≤ ·) p.2.ice p'.2.ice ∧
      List.Forall₂ (· ≤ ·) p.2.ej p'.2.ej) cols₁ cols₂)
    (hov : List.Forall₂ (· ≥ ·) ov₁ ov₂)
    (hbd : List.Forall₂ (List.Forall₂ (· ≥ ·)) bd₁ bd₂)
    (hbf : List.Forall₂ (List.Forall₂ (· ≥ ·)) bf₁ bf₂)
    (hf₁ : ∀ row ∈ bf₁, ∀ x ∈ row, x ≤ 1) (hf₂ : ∀ row ∈ bf₂, ∀ x ∈ row, 0 ≤ x)
    (e₁ : updateStratCols (fun x => x) shield costello names cols₁ ov₁ bd₁ bf₁ = .ok r₁)
    (e₂ : updateStratCols (fun x => x) shield costello names cols₂ ov₂ bd₂ bf₂ = .ok r₂) :
    List.Forall₂ (fun p p' => p.1 = p'.1 ∧ List.Forall₂ (· ≤ ·) p.2.ice p'.2.ice) r₁ r₂ := by
  have hget2 : ∀ {m₁ m₂ : List (List K)}, List.Forall₂ (List.Forall₂ (· ≥ ·)) m₁ m₂ →
      ∀ t i x y, pyGet2 m₁ t i = .ok x → pyGet2 m₂ t i = .ok y → y ≤ x := by
    intro m₁ m₂ hm t i x y hx hy
    rw [forall₂_iff_getElem?] at hm
    unfold pyGet2 at hx hy
    cases hr : pyGet m₁ t with
    | error e => rw [hr] at hx; cases hx
    | ok row =>
      cases hr' : pyGet m₂ t with
      | error e => rw [hr'] at hy; cases hy
      | ok row' =>
        rw [hr] at hx; rw [hr'] at hy
        have := hm.2 t row row' (pyGet_eq_ok.1 hr) (pyGet_eq_ok.1 hr')
        rw [forall₂_iff_getElem?] at this
        exact this.2 i x y (pyGet_eq_ok.1 hx) (pyGet_eq_ok.1 hy)
  have hR : ∀ p q : String × StratCol K, EntryLE p q → p.1 = q.1 := fun p q h => h.1
  have traps : ∀ (nms : List String) (t i : Nat) (o₁ o₂ : K) (c₁ c₂ s₁ s₂ : PyDict (StratCol K)),
      o₂ ≤ o₁ → (∀ p ∈ c₁, (∀ x ∈ p.2.ice, 0 ≤ x) ∧ ∀ x ∈ p.2.ej, 0 ≤ x) →
      List.Forall₂ EntryLE c₁ c₂ →
      updateTraps (fun x => x) shield costello bd₁ bf₁ t o₁ i nms c₁ = .ok s₁ →
      updateTraps (fun x => x) shield costello bd₂ bf₂ t o₂ i nms c₂ = .ok s₂ →
      List.Forall₂ EntryLE s₁ s₂ ∧ (∀ p ∈ s₁, (∀ x ∈ p.2.ice, 0 ≤ x) ∧ ∀ x ∈ p.2.ej, 0 ≤ x) := by
    intro nms
    induction nms with
    | nil => intro t i o₁ o₂ c₁ c₂ s₁ s₂ _ hp hc h₁ h₂; cases h₁; cases h₂; exact ⟨hc, hp⟩
    | cons nm rest ih =>
      intro t i o₁ o₂ c₁ c₂ s₁ s₂ ho hp hc h₁ h₂
      obtain ⟨a, d, f, ice, a1, a2, a3, a4, a5⟩ := updateTraps_cons h₁
      obtain ⟨b, d', f', ice', b1, b2, b3, b4, b5⟩ := updateTraps_cons h₂
      have hab := get_forall₂ hR hc a1 b1
      have hpa := hp _ (PyDict.mem_of_get a1)
      have hf0 : 0 ≤ f' := by obtain ⟨row, h1, h2⟩ := pyGet2_mem b3; exact hf₂ row h1 f' h2
      have hf1 : f ≤ 1 := by obtain ⟨row, h1, h2⟩ := pyGet2_mem a3; exact hf₁ row h1 f h2
      obtain ⟨hm, hn⟩ := updateIceCol_mono hpa.1 hpa.2 hab.2.1 hab.2.2 ho
        (hget2 hbd t i d d' a2 b2) (hget2 hbf t i f f' a3 b3) hf0 hf1 a4 b4
      have hnew : EntryLE (nm, { a with ice := ice }) (nm, { b with ice := ice' }) :=
        ⟨rfl, hm, hab.2.2⟩
      refine ih t (i + 1) o₁ o₂ _ _ s₁ s₂ ho ?_ (set_forall₂ hR hc hnew) a5 b5
      intro p hpm
      rcases mem_set hpm with hpm | rfl
      · exact hp p hpm
      · exact ⟨hn, hpa.2⟩
  have run : ∀ (t : Nat) (c₁ c₂ : PyDict (StratCol K)),
      (∀ p ∈ c₁, (∀ x ∈ p.2.ice, 0 ≤ x) ∧ ∀ x ∈ p.2.ej, 0 ≤ x) →
      List.Forall₂ EntryLE c₁ c₂ →
      updateStratColsFrom (fun x => x) shield costello names bd₁ bf₁ t ov₁ c₁ = .ok r₁ →
      updateStratColsFrom (fun x => x) shield costello names bd₂ bf₂ t ov₂ c₂ = .ok r₂ →
      List.Forall₂ EntryLE r₁ r₂ := by
    clear e₁ e₂ hcols hpos
    induction hov with
    | nil => intro t c₁ c₂ _ hc h₁ h₂; cases h₁; cases h₂; exact hc
    | cons ho _ ih =>
      intro t c₁ c₂ hp hc h₁ h₂
      obtain ⟨m₁, a1, a2⟩ := updateFrom_cons h₁
      obtain ⟨m₂, b1, b2⟩ := updateFrom_cons h₂
      obtain ⟨hm, hpm⟩ := traps names t 0 _ _ c₁ c₂ m₁ m₂ ho hp hc a1 b1
      exact ih (t + 1) m₁ m₂ hpm hm a2 b2
  have hfin := run 0 cols₁ cols₂ hpos hcols e₁ e₂
  exact hfin.imp (fun p q h => ⟨h.1, h.2.1⟩)

/-- C73 on a pair of runs that differ in delivered ice and in overturn. -/
example :
    (updateStratCols (fun x => x) (2 / 5) true ["A"] [("A", ⟨[2, 1], [0, 0], []⟩)] [1, 1]
      [[0], [0]] [[0], [0]]).map (fun c => c.map (·.2.ice)) = .ok [[(0 : ℚ), 0]] ∧
    (updateStratCols (fun x => x) (2 / 5) true ["A"] [("A", ⟨[2, 2], [0, 0], []⟩)] [1, 1 / 2]
      [[0], [0]] [[0], [0]]).map (fun c => c.map (·.2.ice)) = .ok [[(1 : ℚ), 3 / 2]] := by
  constructor <;> decide +kernel

/-- C73 on a pair of runs of cannon mode: thicker ejecta shield the ice. -/
example :
    (updateStratCols (fun x => x) (2 / 5) false ["A"] [("A", ⟨[2, 1], [0, 0], []⟩)] [1, 1]
      [[0], [0]] [[0], [0]]).map (fun c => c.map (·.2.ice)) = .ok [[(1 : ℚ), 0]] ∧
    (updateStratCols (fun x => x) (2 / 5) false ["A"] [("A", ⟨[2, 1], [0, 1], []⟩)] [1, 1]
      [[0], [0]] [[0], [0]]).map (fun c => c.map (·.2.ice)) = .ok [[(1 : ℚ), 1]] := by
  constructor <;> decide +kernel

end MoonPIES
