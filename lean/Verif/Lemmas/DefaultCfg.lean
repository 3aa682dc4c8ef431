import Verif.Lemmas.CfgCongr
import Verif.Lemmas.Agg
import Verif.Lemmas.Except
import Verif.Model.DefaultCfg
import Verif.Props.ConfigPath
import Verif.Props.CfgRun
import Verif.Spec.DefaultCfg

/-!
# Lemmas about the file of default options
-/

namespace MoonPIES

open Spec

/-- The conversion of this value does not depend on the interpreter. -/
def envFree : PyType → PyVal → Bool
  | .bool, _ => true
  | .tuple, _ => true
  | .int, .str _ => false
  | .int, _ => true
  | .float, .str _ => false
  | .float, _ => true
  | ty, v => isInstance ty v

theorem envFree_eq {d : FieldDecl} {v : PyVal} (h : envFree d.type v = true) (env env' : Env) :
    enforceOne env d v = enforceOne env' d v := by
  unfold enforceOne
  split
  · rfl
  · rename_i hi
    unfold castTo
    cases ht : d.type <;> rw [ht] at h hi <;> first
      | rfl
      | (cases v <;> first | rfl | exact absurd rfl hi | exact absurd h Bool.false_ne_true)

/-- Some environment. -/
def bareEnv : Env where
  date := []
  time := []
  draw := 0
  cwd := ['/']
  dataDir := []
  pathExists := fun _ => false
  userHome := fun _ => none
  isNumeric := fun _ => false
  parseInt := fun _ => none
  parseFloat := fun _ => none
  strOf := fun _ => []
  dictOf := fun _ => .error .typeError

/-- The attributes right after `__init__` without arguments. -/
def dflt0 : CfgVals := fun f => match cfgFields.find? (fun d => decide (d.name = f)) with
  | some d => d.dflt
  | none => .none

theorem init_nil : initFields [] = .ok dflt0 := rfl

/-- Keys left out of the file. -/
def leftOut : List String := ["seed", "run_time", "run_date"] ++ modeMoonpies.map (·.1)

/-- Value of a field in the file. -/
def fileValue (d : FieldDecl) : PyVal :=
  if isPlain d.name then
    match enforceOne bareEnv d (fillNone (fillNone dflt0 modeMoonpies) poleSouth d.name) with
    | .ok w => w
    | .error _ => .none
  else d.dflt

/-- The file. -/
def defaultFile : List (String × PyVal) :=
  (cfgFields.filter (fun d => decide (d.name ∉ leftOut))).map (fun d => (d.name, fileValue d))

theorem pyDel_eq {α : Type} (f : FieldDecl → α) (k : String) : ∀ ds : List FieldDecl,
    (ds.map (·.name)).Nodup → k ∈ ds.map (·.name) →
    pyDel (ds.map (fun d => (d.name, f d))) k =
      .ok ((ds.filter (fun d => decide (d.name ≠ k))).map (fun d => (d.name, f d)))
  | [], _, h => by simp at h
  | d :: ds, hn, h => by
    rw [List.map_cons, List.nodup_cons] at hn
    rw [List.map_cons]
    unfold pyDel
    by_cases e : d.name = k
    · rw [if_pos e, List.filter_cons_of_neg (by simpa using e), List.filter_eq_self.2]
      intro x hx
      apply decide_eq_true
      intro e'
      exact hn.1 (List.mem_map.2 ⟨x, hx, e'.trans e.symm⟩)
    · rw [if_neg e, List.filter_cons_of_pos (by simpa using e),
        pyDel_eq f k ds hn.2 (by
          rw [List.map_cons, List.mem_cons] at h
          exact h.resolve_left (fun e' => e e'.symm))]
      rfl

theorem pyDelAll_eq {α : Type} (f : FieldDecl → α) : ∀ (ks : List String) (ds : List FieldDecl),
    (ds.map (·.name)).Nodup → ks.Nodup → (∀ k ∈ ks, k ∈ ds.map (·.name)) →
    pyDelAll (ds.map (fun d => (d.name, f d))) ks =
      .ok ((ds.filter (fun d => decide (d.name ∉ ks))).map (fun d => (d.name, f d)))
  | [], ds, _, _, _ => by
    unfold pyDelAll
    rw [List.filter_eq_self.2 (by simp)]
  | k :: ks, ds, hn, hk, h => by
    unfold pyDelAll
    rw [List.nodup_cons] at hk
    rw [pyDel_eq f k ds hn (h k List.mem_cons_self)]
    simp only []
    rw [pyDelAll_eq f ks _ (hn.sublist (List.filter_sublist.map _)) hk.2 (by
      intro k' hk'
      obtain ⟨d, hd, e⟩ := List.mem_map.1 (h k' (List.mem_cons_of_mem _ hk'))
      refine List.mem_map.2 ⟨d, List.mem_filter.2 ⟨hd, decide_eq_true ?_⟩, e⟩
      rintro rfl
      exact hk.1 (e ▸ hk')), List.filter_filter]
    congr 2
    apply List.filter_congr
    intro d _
    rw [← Bool.decide_and]
    congr 1
    simp only [List.mem_cons, not_or, ne_eq, eq_iff_iff]
    tauto

theorem leftOut_nodup : leftOut.Nodup := by decide +kernel

theorem leftOut_fields : ∀ k ∈ leftOut, k ∈ cfgFields.map (·.name) := by decide +kernel

theorem file_table : ∀ d ∈ cfgFields, d.name ∉ leftOut → isPlain d.name = true →
    isInstance d.type (fileValue d) = true ∧ fileValue d ≠ .none ∧
    envFree d.type (fillNone (fillNone dflt0 modeMoonpies) poleSouth d.name) = true ∧
    (enforceOne bareEnv d (fillNone (fillNone dflt0 modeMoonpies) poleSouth d.name)).toOption =
      some (fileValue d) ∧
    ¬ "path".toList <:+: d.name.toList ∧ "_in".toList.isSuffixOf d.name.toList = false ∧
      "_out".toList.isSuffixOf d.name.toList = false := by decide +kernel

theorem fill_table : ∀ e ∈ modeDict, ∀ e' ∈ poleDict, ∀ d ∈ cfgFields, d.name ∉ leftOut →
    isPlain d.name = true → (d.name ∉ poleOptions ∨ e'.1 = "s".toList) →
    fillNone (fillNone dflt0 e.2) e'.2 d.name =
      fillNone (fillNone dflt0 modeMoonpies) poleSouth d.name := by decide +kernel

theorem rest_table : ∀ d ∈ cfgFields, d.name ∉ leftOut → isPlain d.name = false →
    fileValue d = d.dflt ∧
    ((d.name ∈ ["data_path", "out_path", "figs_path"] ∧ "path".toList <:+: d.name.toList ∧
      d.dflt = .str []) ∨
    (¬ "path".toList <:+: d.name.toList ∧ ("_in".toList.isSuffixOf d.name.toList ||
      "_out".toList.isSuffixOf d.name.toList) = true ∧
      d.type = .str ∧ (d.dflt matches .str _) = true ∧ dflt0 d.name = d.dflt ∧
      Ordinary (strVal d.dflt) ∧ baseName (strVal d.dflt) = strVal d.dflt ∧
      d.name ∉ ["seed", "run_date", "run_time", "data_path", "out_path", "figs_path"] ∧
      d.name ∉ modeMoonpies.map (·.1) ∧ d.name ∉ poleSouth.map (·.1))) := by
  unfold Ordinary
  decide +kernel

theorem toOption_some {α : Type} {x : Except PyErr α} {a : α} (h : x.toOption = some a) :
    x = .ok a := by
  cases x with
  | error e => cases h
  | ok b => cases h; rfl

theorem dflt0_facts : (dictGet modeDict (dflt0 "mode")).toOption = some modeMoonpies ∧
    (dictGet poleDict (dflt0 "pole")).toOption = some poleSouth ∧
    dflt0 "data_path" = .str [] := by decide +kernel

theorem default_entry {env : Env} {c c0 c4 c5 : CfgVals} {n : Int}
    {md pd : List (String × PyVal)} {out : Str} (h : Steps env [] c c0 c4 c5 n md pd out)
    (hcwd : env.cwd.head? = some '/') {d : FieldDecl} (hd : d ∈ cfgFields)
    (hl : d.name ∉ leftOut) : defaultEntry (d.name, c d.name) = .ok (d.name, fileValue d) := by
  have e0 : c0 = dflt0 := by
    have := h.init
    rw [init_nil, Except.ok.injEq] at this
    exact this.symm
  subst e0
  have em : md = modeMoonpies := by
    have := h.mode
    rw [show dictGet modeDict (dflt0 "mode") = .ok modeMoonpies from
      toOption_some dflt0_facts.1, Except.ok.injEq] at this
    exact this.symm
  have ep : pd = poleSouth := by
    have := h.pole
    rw [show dictGet poleDict (dflt0 "pole") = .ok poleSouth from
      toOption_some dflt0_facts.2.1, Except.ok.injEq] at this
    exact this.symm
  subst em ep
  unfold defaultEntry
  simp only []
  by_cases hp : isPlain d.name = true
  · obtain ⟨t1, t2, t3, t4, t5, t6, t7⟩ := file_table d hd hl hp
    rw [if_neg t5, t6, t7, Bool.or_false, if_neg (by simp)]
    have := h.plain hd hp
    rw [envFree_eq t3 env bareEnv, toOption_some t4, Except.ok.injEq] at this
    rw [this]
  · obtain ⟨f1, f2⟩ := rest_table d hd hl (by simpa using hp)
    rcases f2 with ⟨-, f3, f4⟩ | ⟨f2, f3, f4, f5, f6, f7, f8, f9, f10, f11⟩
    · rw [if_pos f3, f1, f4]
    · rw [if_neg f2, if_pos f3]
      obtain ⟨s, hs⟩ : ∃ s, d.dflt = .str s := by
        cases hx : d.dflt <;> rw [hx] at f5 <;> first | exact ⟨_, rfl⟩ | cases f5
      rw [hs] at f6 f7 f8
      simp only [strVal] at f7 f8
      have h4 : c4 d.name = .str s := by
        simp only [List.mem_cons, List.not_mem_nil, or_false, not_or] at f9
        obtain ⟨a1, a2, a3, a4, a5, a6⟩ := f9
        rw [h.c4_rest _ a1 a2 a3 a4 a5 a6, fillNone_not_mem _ _ _ f11,
          fillNone_not_mem _ _ _ f10, f6]
      have hout : out ≠ [] := by
        obtain ⟨s', r, -, e⟩ := h.out_str
        rw [e]
        unfold outPathStr
        simp
      have hdata : c4 "data_path" = .str (env.dataDir ++ ['/']) := by
        rw [h.c4_data, dflt0_facts.2.2, if_neg (by simp)]
      have ha := h.abs d hd
      rw [h4, hdata] at ha
      have hb : ∃ q, c5 d.name = .str q ∧ baseName q = s := by
        unfold absField at ha
        simp only [] at ha
        split at ha
        · rw [Except.ok.injEq] at ha
          refine ⟨_, ha.symm, ?_⟩
          split
          · exact f8
          · rw [f8]; exact abs_join_base hcwd _ (by simp) f7
        · rename_i hin
          rw [Bool.or_eq_true] at f3
          rw [if_pos (f3.resolve_left hin)] at ha
          rw [Except.ok.injEq] at ha
          refine ⟨_, ha.symm, ?_⟩
          split
          · exact f8
          · rw [f8]; exact abs_join_base hcwd _ hout f7
      obtain ⟨q, hq, hqs⟩ := hb
      have ht := h.types d hd
      rw [hq, enforceOne_id (by rw [f4]; exact .str _), Except.ok.injEq] at ht
      rw [← ht]
      simp only []
      rw [hqs, f1, hs]

theorem find_decl {d : FieldDecl} (hd : d ∈ cfgFields) :
    cfgFields.find? (fun x => decide (x.name = d.name)) = some d := by
  cases hx : cfgFields.find? (fun x => decide (x.name = d.name)) with
  | none =>
    rw [List.find?_eq_none] at hx
    exact absurd (decide_eq_true (rfl : d.name = d.name)) (hx d hd)
  | some x =>
    have e1 := List.find?_some hx
    have e2 := List.mem_of_find?_eq_some hx
    simp only [decide_eq_true_eq] at e1
    rw [(List.inj_on_of_nodup_map cfgNames_nodup) e2 hd e1]

theorem mapM_map_eq {α β γ : Type} (f : β → Except PyErr γ) (g : α → β) (h : α → γ) :
    ∀ l : List α, (∀ a ∈ l, f (g a) = .ok (h a)) → (l.map g).mapM f = .ok (l.map h)
  | [], _ => rfl
  | a :: l, H => by
    rw [List.map_cons, List.mapM_cons, H a (by simp),
      mapM_map_eq f g h l (fun a ha => H a (by simp [ha]))]
    rfl

theorem bind_of_ok {α β : Type} {x : Except PyErr α} {a : α} (h : x = .ok a)
    (f : α → Except PyErr β) : (x >>= f) = f a := by
  rw [h]; rfl

theorem default_file (env : Env) (hcwd : env.cwd.head? = some '/') :
    makeDefaultCfg env = .ok defaultFile := by
  obtain ⟨c, hc, -⟩ := C79_accepted env [] ⟨by simp, by simp, by simp, by simp⟩
  obtain ⟨c0, c4, c5, n, md, pd, out, st⟩ := makeCfg_steps hc
  have hl : ["seed", "run_time", "run_date"] ++ modeMoonpies.map (·.1) = leftOut := by
    unfold leftOut
    exact Eq.refl _
  have h1 := pyDelAll_eq (fun d => c d.name) leftOut cfgFields cfgNames_nodup leftOut_nodup
    leftOut_fields
  have h2 := mapM_map_eq defaultEntry (fun d => (d.name, c d.name)) (fun d => (d.name, fileValue d))
    (cfgFields.filter (fun d => decide (d.name ∉ leftOut))) (by
      intro d hd
      rw [List.mem_filter, decide_eq_true_eq] at hd
      exact default_entry st hcwd hd.1 hd.2)
  rw [← hl] at h1
  unfold makeDefaultCfg
  rw [bind_of_ok hc, toDict, bind_of_ok h1, hl]
  rw [h2, defaultFile]

end MoonPIES
