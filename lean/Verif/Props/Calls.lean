import Verif.Spec.Calls
import Verif.Lemmas.Except
import Mathlib.Data.List.Dedup
import Mathlib.Tactic.Common

/-!
# C134: the notebooks call the figure functions with parameters they have
-/

namespace MoonPIES

open Spec

variable {α : Type}

/-! ## Helpers -/

theorem setSlot_ok {k : String} {v : α} : ∀ {slots : List (String × Option α)},
    (slots.map (·.1)).Nodup → (k, none) ∈ slots → ∃ out, setSlot k v slots = .ok out ∧
      out.map (·.1) = slots.map (·.1) ∧ ∀ n o, (n, o) ∈ out ↔
        ((n ≠ k ∧ (n, o) ∈ slots) ∨ (n = k ∧ o = some v))
  | [], _, h => by cases h
  | (n, o) :: rest, hn, h => by
    rw [List.map_cons, List.nodup_cons] at hn
    unfold setSlot
    by_cases hk : n = k
    · rw [if_pos hk]
      have ho : o = none := by
        rcases List.mem_cons.1 h with e | e
        · injection e with _ e; exact e.symm
        · exact absurd (List.mem_map_of_mem (f := Prod.fst) e) (hk ▸ hn.1)
      subst ho hk
      refine ⟨_, rfl, rfl, ?_⟩
      intro m o
      rw [List.mem_cons, List.mem_cons]
      constructor
      · rintro (e | e)
        · injection e with e1 e2; exact .inr ⟨e1, e2⟩
        · by_cases hm : m = n
          · subst hm; exact absurd (List.mem_map_of_mem (f := Prod.fst) e) hn.1
          · exact .inl ⟨hm, .inr e⟩
      · rintro (⟨h1, e | e⟩ | ⟨rfl, rfl⟩)
        · injection e with e1 e2; exact absurd e1 h1
        · exact .inr e
        · exact .inl rfl
    · rw [if_neg hk]
      have hr : (k, none) ∈ rest := by
        rcases List.mem_cons.1 h with e | e
        · injection e with e _; exact absurd e.symm hk
        · exact e
      obtain ⟨out, h1, h2, h3⟩ := setSlot_ok (v := v) hn.2 hr
      refine ⟨(n, o) :: out, by rw [h1]; rfl, by rw [List.map_cons, List.map_cons, h2], ?_⟩
      intro m o'
      rw [List.mem_cons, List.mem_cons, h3]
      constructor
      · rintro (e | ⟨e1, e2⟩ | e)
        · injection e with e1 e2; subst e1 e2; exact .inl ⟨hk, .inl rfl⟩
        · exact .inl ⟨e1, .inr e2⟩
        · exact .inr e
      · rintro (⟨e1, e | e⟩ | e)
        · exact .inl e
        · exact .inr (.inl ⟨e1, e⟩)
        · exact .inr (.inr e)

theorem setSlot_error {k : String} {v : α} : ∀ {slots : List (String × Option α)},
    (slots.map (·.1)).Nodup → (k, none) ∉ slots → setSlot k v slots = .error .typeError
  | [], _, _ => rfl
  | (n, o) :: rest, hn, h => by
    rw [List.map_cons, List.nodup_cons] at hn
    rw [List.mem_cons, not_or] at h
    unfold setSlot
    by_cases hk : n = k
    · rw [if_pos hk]
      cases o with
      | none => exact absurd (by rw [hk]) h.1
      | some x => rfl
    · rw [if_neg hk, setSlot_error hn.2 h.2]
      rfl

theorem setSlots_ok : ∀ {kw : List (String × α)} {slots : List (String × Option α)},
    (slots.map (·.1)).Nodup → (kw.map (·.1)).Nodup → (∀ k ∈ kw.map (·.1), (k, none) ∈ slots) →
    ∃ out, setSlots kw slots = .ok out ∧ out.map (·.1) = slots.map (·.1) ∧
      ∀ n o, (n, o) ∈ out ↔ ((n ∉ kw.map (·.1) ∧ (n, o) ∈ slots) ∨ ∃ v, o = some v ∧ (n, v) ∈ kw)
  | [], slots, _, _, _ => ⟨slots, rfl, rfl, by intro n o; simp⟩
  | (k, v) :: kw, slots, hn, hk, h => by
    rw [List.map_cons, List.nodup_cons] at hk
    obtain ⟨s1, a1, a2, a3⟩ := setSlot_ok (v := v) hn (h k (by simp))
    obtain ⟨out, b1, b2, b3⟩ := setSlots_ok (kw := kw) (slots := s1) (by rw [a2]; exact hn) hk.2 (by
      intro k' hk'
      rw [a3]
      exact .inl ⟨fun e => hk.1 (e ▸ hk'), h k' (by rw [List.map_cons]; exact List.mem_cons_of_mem _ hk')⟩)
    refine ⟨out, by unfold setSlots; rw [a1]; exact b1, b2.trans a2, ?_⟩
    intro n o
    rw [b3, a3]
    simp only [List.map_cons, List.mem_cons, not_or]
    constructor
    · rintro (⟨h1, ⟨h2, h3⟩ | ⟨h2, h3⟩⟩ | ⟨w, h2, h3⟩)
      · exact .inl ⟨⟨h2, h1⟩, h3⟩
      · exact .inr ⟨v, h3, .inl (by rw [h2])⟩
      · exact .inr ⟨w, h2, .inr h3⟩
    · rintro (⟨⟨h1, h2⟩, h3⟩ | ⟨w, h2, e | h3⟩)
      · exact .inl ⟨h2, .inl ⟨h1, h3⟩⟩
      · injection e with e1 e2
        subst e1 e2
        exact .inl ⟨hk.1, .inr ⟨rfl, h2⟩⟩
      · exact .inr ⟨w, h2, h3⟩

theorem setSlots_error : ∀ {kw : List (String × α)} {slots : List (String × Option α)},
    (slots.map (·.1)).Nodup → ¬ ((kw.map (·.1)).Nodup ∧ ∀ k ∈ kw.map (·.1), (k, none) ∈ slots) →
    setSlots kw slots = .error .typeError
  | [], slots, _, h => absurd ⟨List.nodup_nil, by simp⟩ h
  | (k, v) :: kw, slots, hn, h => by
    unfold setSlots
    by_cases hk : (k, none) ∈ slots
    · obtain ⟨s1, a1, a2, a3⟩ := setSlot_ok (v := v) hn hk
      rw [a1]
      refine setSlots_error (by rw [a2]; exact hn) ?_
      rintro ⟨h1, h2⟩
      apply h
      rw [List.map_cons, List.nodup_cons]
      refine ⟨⟨?_, h1⟩, ?_⟩
      · intro hm
        have := h2 k hm
        rw [a3] at this
        rcases this with ⟨e, -⟩ | ⟨-, e⟩
        · exact e rfl
        · cases e
      · intro k' hk'
        rcases List.mem_cons.1 hk' with rfl | hk'
        · exact hk
        · have := h2 k' hk'
          rw [a3] at this
          rcases this with ⟨-, e⟩ | ⟨-, e⟩
          · exact e
          · cases e
    · rw [setSlot_error hn hk]
      rfl

theorem posSlots_names : ∀ (ps : Sig) (pos : List α), (posSlots ps pos).map (·.1) = ps.map (·.1)
  | [], _ => rfl
  | (n, _) :: ps, [] => by unfold posSlots; rw [List.map_cons, List.map_cons, posSlots_names ps []]
  | (n, _) :: ps, a :: as => by unfold posSlots; rw [List.map_cons, List.map_cons, posSlots_names ps as]

theorem posSlots_get : ∀ (ps : Sig) (pos : List α) (i : Nat) (p : String × Bool), ps[i]? = some p →
    (posSlots ps pos)[i]? = some (p.1, pos[i]?)
  | [], _, i, p, h => by simp at h
  | q :: ps, [], 0, p, h => by simp only [List.getElem?_cons_zero, Option.some.injEq] at h; subst h; rfl
  | q :: ps, [], i + 1, p, h => by
    rw [List.getElem?_cons_succ] at h
    simpa [posSlots] using posSlots_get ps [] i p h
  | q :: ps, a :: as, 0, p, h => by
    simp only [List.getElem?_cons_zero, Option.some.injEq] at h; subst h; rfl
  | q :: ps, a :: as, i + 1, p, h => by
    rw [List.getElem?_cons_succ] at h
    simpa [posSlots] using posSlots_get ps as i p h

theorem posSlots_none (ps : Sig) (pos : List α) (n : String) : (n, none) ∈ posSlots ps pos ↔
    ∃ (i : Nat) (p : String × Bool), pos.length ≤ i ∧ ps[i]? = some p ∧ p.1 = n := by
  have hl : (posSlots ps pos).length = ps.length := by
    simpa using congrArg List.length (posSlots_names ps pos)
  constructor
  · intro h
    obtain ⟨i, hi⟩ := List.mem_iff_getElem?.1 h
    have hlt : i < ps.length := by
      rw [← hl]; exact (List.getElem?_eq_some_iff.1 hi).1
    have hp := List.getElem?_eq_getElem hlt
    rw [posSlots_get ps pos i _ hp] at hi
    injection hi with hi
    injection hi with h1 h2
    exact ⟨i, _, List.getElem?_eq_none_iff.1 h2, hp, h1⟩
  · rintro ⟨i, p, h1, h2, rfl⟩
    have := posSlots_get ps pos i p h2
    rw [List.getElem?_eq_none_iff.2 h1] at this
    exact List.mem_of_getElem? this

/-- **C134** Python's calls: a call starts the function exactly if its arguments fit the parameters, each
parameter receives its own argument, and otherwise it raises `TypeError`. -/
theorem C134_binds (ps : Sig) (hps : (ps.map (·.1)).Nodup) (pos : List α) (kw : List (String × α)) :
    (CallFits ps pos kw → ∃ out, bindCall ps pos kw = .ok out ∧ Received ps pos kw out) ∧
    (¬ CallFits ps pos kw → bindCall ps pos kw = .error .typeError) := by
  have hn : ((posSlots ps pos).map (·.1)).Nodup := by rw [posSlots_names]; exact hps
  by_cases hlen : ps.length < pos.length
  · refine ⟨fun h => absurd h.few (by omega), fun _ => ?_⟩
    unfold bindCall
    rw [if_pos hlen]
  by_cases hkw : (kw.map (·.1)).Nodup ∧ ∀ k ∈ kw.map (·.1), (k, none) ∈ posSlots ps pos
  swap
  · refine ⟨fun h => absurd ⟨h.once, fun k hk => (posSlots_none ps pos k).2 (h.known k hk)⟩ hkw,
      fun _ => ?_⟩
    unfold bindCall
    rw [if_neg hlen, setSlots_error hn hkw]
    rfl
  obtain ⟨out, a1, a2, a3⟩ := setSlots_ok hn hkw.1 hkw.2
  rw [posSlots_names] at a2
  have hl : out.length = ps.length := by simpa using congrArg List.length a2
  have hget : ∀ (i : Nat) p, ps[i]? = some p → ∃ o, out[i]? = some (p.1, o) ∧
      ∀ v, o = some v ↔ pos[i]? = some v ∨ (p.1, v) ∈ kw := by
    intro i p hp
    have hi : i < out.length := by rw [hl]; exact (List.getElem?_eq_some_iff.1 hp).1
    have ho := List.getElem?_eq_getElem hi
    have hname : (out[i]).1 = p.1 := by
      have h1 : (out.map (·.1))[i]? = (ps.map (·.1))[i]? := by rw [a2]
      rw [List.getElem?_map, List.getElem?_map, ho, hp] at h1
      exact Option.some.inj h1
    obtain ⟨o, he⟩ : ∃ o, out[i] = (p.1, o) := ⟨(out[i]).2, by rw [← hname]⟩
    refine ⟨o, by rw [ho, he], ?_⟩
    have hm : (p.1, o) ∈ out := he ▸ List.getElem_mem hi
    have hs := posSlots_get ps pos i p hp
    -- the only entry of that name
    have huniq : ∀ o', (p.1, o') ∈ posSlots ps pos → o' = pos[i]? := by
      intro o' h'
      exact congrArg Prod.snd (List.inj_on_of_nodup_map hn h' (List.mem_of_getElem? hs) rfl)
    have huniq2 : ∀ o', (p.1, o') ∈ out → o' = o := by
      intro o' h'
      refine congrArg Prod.snd (List.inj_on_of_nodup_map (f := Prod.fst) ?_ h' hm rfl)
      rw [a2]; exact hps
    intro v
    constructor
    · intro hv
      subst hv
      rcases (a3 _ _).1 hm with ⟨-, h2⟩ | ⟨w, h1, h2⟩
      · exact .inl (huniq _ h2).symm
      · injection h1 with h1
        exact .inr (h1 ▸ h2)
    · rintro (h | h)
      · refine (huniq2 _ ((a3 _ _).2 (.inl ⟨?_, ?_⟩))).symm
        · intro hk
          have := huniq _ (hkw.2 _ hk)
          rw [h] at this
          cases this
        · rw [← h]; exact List.mem_of_getElem? hs
      · exact (huniq2 _ ((a3 _ _).2 (.inr ⟨v, rfl, h⟩))).symm
  have hall : (out.zip ps).all (fun p => p.1.2.isSome || p.2.2) = true ↔
      ∀ (i : Nat) p, pos.length ≤ i → ps[i]? = some p → p.2 = false → p.1 ∈ kw.map (·.1) := by
    rw [List.all_eq_true]
    constructor
    · intro h i p hi hp hd
      obtain ⟨o, ho, hv⟩ := hget i p hp
      have := h ((p.1, o), p) (List.mem_of_getElem? (i := i) (List.getElem?_zip_eq_some.2 ⟨ho, hp⟩))
      rw [hd, Bool.or_false, Option.isSome_iff_exists] at this
      obtain ⟨v, rfl⟩ := this
      rcases (hv v).1 rfl with h | h
      · rw [List.getElem?_eq_none_iff.2 hi] at h; cases h
      · exact List.mem_map_of_mem (f := Prod.fst) h
    · rintro h ⟨⟨n, o⟩, p⟩ hm
      obtain ⟨i, hi⟩ := List.mem_iff_getElem?.1 hm
      obtain ⟨ho, hp⟩ := List.getElem?_zip_eq_some.1 hi
      obtain ⟨o', ho', hv⟩ := hget i p hp
      obtain rfl : o = o' := by
        rw [ho] at ho'
        injection ho' with e
        injection e
      rw [Bool.or_eq_true, Option.isSome_iff_exists]
      by_cases hd : p.2 = true
      · exact .inr hd
      · left
        by_cases hlt : i < pos.length
        · exact ⟨_, (hv _).2 (.inl (List.getElem?_eq_getElem hlt))⟩
        · obtain ⟨⟨k, v⟩, hkv, hk⟩ := List.mem_map.1 (h i p (by omega) hp (by simpa using hd))
          exact ⟨v, (hv v).2 (.inr (by rw [← show k = p.1 from hk]; exact hkv))⟩
  unfold bindCall
  rw [if_neg hlen, a1]
  simp only [bind, Except.bind]
  constructor
  · intro h
    exact ⟨out, if_pos (hall.2 h.all), hl, hget⟩
  · intro h
    refine if_neg fun hc => h ⟨by omega, hkw.1, fun k hk => (posSlots_none ps pos k).1 (hkw.2 k hk),
      hall.1 hc⟩

example : bindCall [("fsave", true), ("figdir", true), ("cfg", false)] [1, 2] [("cfg", (3 : Nat))] =
    .ok [("fsave", some 1), ("figdir", some 2), ("cfg", some 3)] := by decide +kernel
example : bindCall [("fsave", true), ("figdir", true), ("cfg", false)] [1, 2] [("fsave", (3 : Nat))] =
    .error .typeError := by decide +kernel
example : bindCall [("fsave", true), ("cfg", false)] [(1 : Nat)] [] = .error .typeError := by
  decide +kernel

/-- The parameters of every figure function have different names. -/
theorem figSigs_nodup : ∀ f ∈ figSigs, (f.2.map (·.1)).Nodup := by decide +kernel

/-- Whether the keywords alone make a call that fits. -/
def kwFits (ps : Sig) (kws : List String) : Bool :=
  kws.dedup == kws && kws.all (fun k => k ∈ ps.map (·.1)) &&
    ps.all (fun p => p.2 || p.1 ∈ kws)

theorem kwFits_iff (ps : Sig) (kw : List (String × α)) :
    kwFits ps (kw.map (·.1)) = true ↔ CallFits ps [] kw := by
  unfold kwFits
  rw [Bool.and_eq_true, Bool.and_eq_true, beq_iff_eq, List.dedup_eq_self, List.all_eq_true,
    List.all_eq_true]
  constructor
  · rintro ⟨⟨h1, h2⟩, h3⟩
    refine ⟨Nat.zero_le _, h1, ?_, ?_⟩
    · intro k hk
      obtain ⟨p, hp, rfl⟩ := List.mem_map.1 (by simpa using h2 k hk : k ∈ ps.map (·.1))
      obtain ⟨i, hi⟩ := List.mem_iff_getElem?.1 hp
      exact ⟨i, p, Nat.zero_le _, hi, rfl⟩
    · intro i p _ hp hd
      have := h3 p (List.mem_of_getElem? hp)
      rw [hd, Bool.false_or] at this
      exact of_decide_eq_true this
  · intro h
    refine ⟨⟨h.once, ?_⟩, ?_⟩
    · intro k hk
      obtain ⟨i, p, -, hp, rfl⟩ := h.known k hk
      exact decide_eq_true (List.mem_map_of_mem (f := Prod.fst) (List.mem_of_getElem? hp))
    · intro p hp
      obtain ⟨i, hi⟩ := List.mem_iff_getElem?.1 hp
      cases hd : p.2 with
      | true => rfl
      | false =>
        rw [Bool.false_or]
        exact decide_eq_true (h.all i p (Nat.zero_le _) hi hd)

/-- The calls of the supplement that do not fit. -/
def badFigures : List String := ["Figure S5", "Figure S6", "Figure S7", "Figure S8"]

/-- **C134 (partial: Figures S5 to S8 of the supplement fail, `C134_supplement_refuted`)** Every other call
of a figure in the two notebooks of the paper starts its function, whatever the values of its
arguments, and gives each parameter the argument named after it. -/
theorem C134_figures_partial (fig name : String) (kws : List String)
    (hc : (fig, name, kws) ∈ figureCalls ++ supplementCalls) (hg : fig ∉ badFigures)
    (kw : List (String × α)) (hkw : kw.map (·.1) = kws) :
    ∃ ps out, (name, ps) ∈ figSigs ∧ callIn figSigs name [] kw = .ok out ∧ Received ps [] kw out := by
  have key : ∀ c ∈ figureCalls ++ supplementCalls, c.1 ∉ badFigures →
      ∃ f ∈ figSigs, figSigs.lookup c.2.1 = some f.2 ∧ f.1 = c.2.1 ∧ kwFits f.2 c.2.2 = true := by
    decide +kernel
  obtain ⟨⟨n, ps⟩, hm, hl, rfl, hf⟩ := key _ hc hg
  have hfit : CallFits ps [] kw := (kwFits_iff ps kw).1 (by rw [hkw]; exact hf)
  obtain ⟨out, h1, h2⟩ := (C134_binds ps (figSigs_nodup _ hm) [] kw).1 hfit
  refine ⟨ps, out, hm, ?_, h2⟩
  unfold callIn
  dsimp only at hl ⊢
  rw [hl]
  exact h1

/-- **C134, refuted in general** The calls of Figures S5 to S8 raise `TypeError`, whatever their values:
the functions have no parameter `fsave`. -/
theorem C134_supplement_refuted (fig name : String) (kws : List String)
    (hc : (fig, name, kws) ∈ figureCalls ++ supplementCalls) (hg : fig ∈ badFigures)
    (kw : List (String × α)) (hkw : kw.map (·.1) = kws) :
    callIn figSigs name [] kw = .error .typeError := by
  have key : ∀ c ∈ figureCalls ++ supplementCalls, c.1 ∈ badFigures →
      ∃ f ∈ figSigs, figSigs.lookup c.2.1 = some f.2 ∧ f.1 = c.2.1 ∧ kwFits f.2 c.2.2 = false := by
    decide +kernel
  obtain ⟨⟨n, ps⟩, hm, hl, rfl, hf⟩ := key _ hc hg
  have hfit : ¬ CallFits ps [] kw := fun h => by
    have := (kwFits_iff ps kw).2 h
    rw [hkw] at this
    rw [show kwFits ps kws = false from hf] at this
    cases this
  unfold callIn
  dsimp only at hl ⊢
  rw [hl]
  exact (C134_binds ps (figSigs_nodup _ hm) [] kw).2 hfit

/-- There are such calls. -/
example : ("Figure S7", "ice_pct_fig7", ["fsave"]) ∈ figureCalls ++ supplementCalls ∧
    "Figure S7" ∈ badFigures ∧
    callIn figSigs "ice_pct_fig7" [] [("fsave", false)] = .error .typeError ∧
    callIn figSigs "ice_pct_fig7" [] [("datedir", "d")] = .ok [("datedir", some "d")] := by
  decide +kernel

/-- **C134** a name that is none of the functions of the figures raises `AttributeError`, whatever its arguments. -/
theorem C134_unknown (name : String) (h : ∀ ps, (name, ps) ∉ figSigs) (pos : List α) (kw : List (String × α)) :
    callIn figSigs name pos kw = .error .attributeError := by
  unfold callIn
  have : figSigs.lookup name = none := by
    rw [List.lookup_eq_none_iff]
    intro p hp
    rw [bne_iff_ne]
    rintro rfl
    exact h p.2 hp
  rw [this]

example : ∀ ps, ("ice_pct_fig6", ps) ∉ figSigs := by
  have : ∀ p ∈ figSigs, p.1 ≠ "ice_pct_fig6" := by decide +kernel
  exact fun ps h => this _ h rfl

/-- **C134** The package, the figure scripts and the tests use only names of `moonpies.py` that it has. -/
theorem C134_names : ∀ name ∈ usedNames, moonpiesAttr name = .ok () := by
  decide +kernel

/-- **C134, refuted for the older scripts** The names that `moonpies.py` no longer has: asking for one
raises `AttributeError`. -/
theorem C134_missing_refuted : ∀ name ∈ ["delta_t_impact", "plot_version", "overturn_depth_morris",
    "overturn_depth_speyerer", "overturn_depth_costello_str", "overturn_depth_costello_grav",
    "overturn_u", "get_overturn_depth", "total_overturn_depth"],
    moonpiesAttr name = .error .attributeError := by
  decide +kernel

example : moonpiesAttr "overturn_depth_time" = .ok () := by decide +kernel

end MoonPIES
