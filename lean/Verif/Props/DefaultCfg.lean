import Verif.Lemmas.DefaultCfg

/-!
# C82: the file of default options
-/

namespace MoonPIES

open Spec

theorem edited_eq (file kw : List (String × PyVal)) : edited file kw = kupdate file kw := by
  have hs : ∀ (d : List (String × PyVal)) k v, PyDict.set d k v = kset d k v := by
    intro d k v
    induction d with
    | nil => rfl
    | cons x d ih =>
      obtain ⟨k', v'⟩ := x
      unfold PyDict.set kset
      rw [ih]
  unfold edited kupdate
  congr 1
  funext d kv
  exact hs d kv.1 kv.2

theorem find_kget (l : List (String × PyVal)) (f : String) :
    (l.find? (fun kv => decide (kv.1 = f))).map (·.2) = kget l f := by
  induction l with
  | nil => rfl
  | cons x l ih =>
    obtain ⟨k, v⟩ := x
    unfold kget
    by_cases h : k = f
    · simp [h]
    · rw [List.find?_cons_of_neg (by simpa using h), if_neg h]
      exact ih

/-- The attributes after `__init__`. -/
theorem init_kget {kw : List (String × PyVal)} {c0 : CfgVals} (h : initFields kw = .ok c0)
    (f : String) : c0 f = match kget kw f with
      | some v => v
      | none => dflt0 f := by
  unfold initFields at h
  split at h
  · rw [Except.ok.injEq] at h
    rw [← h, ← find_kget]
    simp only []
    cases kw.find? (fun kv => decide (kv.1 = f)) <;> rfl
  · cases h

theorem kget_none {kw : List (String × PyVal)} {f : String} (h : f ∉ kw.map (·.1)) :
    kget kw f = none := by
  cases hk : kget kw f with
  | none => rfl
  | some v => exact absurd (List.mem_map.2 ⟨_, mem_of_kget hk, rfl⟩) h

theorem file_keys (f : String) (h : f ∈ defaultFile.map (·.1)) :
    ∃ d ∈ cfgFields, d.name = f ∧ d.name ∉ leftOut ∧ kget defaultFile f = some (fileValue d) := by
  have hn : (defaultFile.map (·.1)).Nodup := by
    unfold defaultFile
    rw [List.map_map]
    exact cfgNames_nodup.sublist (List.filter_sublist.map _)
  obtain ⟨kv, hkv, rfl⟩ := List.mem_map.1 h
  have hm := hkv
  unfold defaultFile at hkv
  obtain ⟨d, hd, rfl⟩ := List.mem_map.1 hkv
  rw [List.mem_filter, decide_eq_true_eq] at hd
  exact ⟨d, hd.1, rfl, hd.2, kget_of_mem hn hm⟩

theorem edited_keys (kw : List (String × PyVal)) : ∀ (file : List (String × PyVal)) (k : String),
    k ∈ (edited file kw).map (·.1) ↔ k ∈ file.map (·.1) ∨ k ∈ kw.map (·.1) := by
  intro file k
  rw [edited_eq]
  induction kw generalizing file with
  | nil => simp [kupdate]
  | cons x kw ih =>
    have hu : kupdate file (x :: kw) = kupdate (kset file x.1 x.2) kw := rfl
    rw [hu, ih, kset_keys, List.map_cons, List.mem_cons]
    split
    · rename_i hx
      constructor
      · tauto
      · rintro (h | rfl | h)
        · exact .inl h
        · exact .inl hx
        · exact .inr h
    · rw [List.mem_append, List.mem_singleton]
      tauto

theorem init_all (kw : List (String × PyVal)) : (∃ c0, initFields kw = .ok c0) ∨
    (initFields kw = .error .typeError ∧ ∃ kv ∈ kw, kv.1 ∉ cfgFields.map (·.name)) := by
  unfold initFields
  split
  · exact .inl ⟨_, rfl⟩
  · rename_i h
    refine .inr ⟨rfl, ?_⟩
    rw [List.all_eq_true] at h
    push Not at h
    obtain ⟨kv, hkv, h⟩ := h
    refine ⟨kv, hkv, fun hm => h ?_⟩
    obtain ⟨d, hd, e⟩ := List.mem_map.1 hm
    exact List.any_eq_true.2 ⟨d, hd, decide_eq_true e⟩

theorem three_table : ∀ d ∈ cfgFields, d.name ∈ ["mode", "pole", "run_name"] →
    fileValue d = d.dflt := by decide +kernel

theorem isInstance_id {env : Env} {d : FieldDecl} {v : PyVal} (h : isInstance d.type v = true) :
    enforceOne env d v = .ok v := by
  unfold enforceOne
  rw [if_pos h]

/-- Decision procedure for `SameValue`. -/
def sameB : PyVal → PyVal → Bool
  | .int n, .float q => decide ((n : ℚ) = q)
  | .float q, .int n => decide (q = (n : ℚ))
  | a, b => decide (a = b)

theorem sameB_same {a b : PyVal} (h : sameB a b = true) : SameValue a b := by
  unfold sameB at h
  split at h
  · rw [← of_decide_eq_true h]; exact .whole _
  · rw [of_decide_eq_true h]; exact .float _
  · rw [of_decide_eq_true h]; exact .refl _

theorem left_table : ∀ d ∈ cfgFields, d.name ∉ leftOut ↔
    d.name ∉ ["seed", "run_time", "run_date"] ∧ d.name ∉ modeCannon.map (·.1) := by
  decide +kernel

theorem value_table : ∀ d ∈ cfgFields, d.name ∉ leftOut → isInstance d.type (fileValue d) = true ∧
    (d.dflt ≠ .none → sameB (fileValue d) d.dflt = true) ∧
    (d.dflt = .none → ∃ kv ∈ poleSouth, kv.1 = d.name ∧ sameB (fileValue d) kv.2 = true) := by
  decide +kernel

/-- **C82** (file) the file of default options is the same whoever writes it, whenever and
wherever: no clock, random number or directory enters it.  Every entry is an option with a value
of its type, no seed or mode switch is listed, and paths are empty or bare file names. -/
theorem C82_file : ∃ D, (∀ env : Env, env.cwd.head? = some '/' → makeDefaultCfg env = .ok D) ∧
    (D.map (·.1)).Nodup ∧
    (∀ d ∈ cfgFields, (∃ v, (d.name, v) ∈ D) ↔
      d.name ∉ ["seed", "run_time", "run_date"] ∧ d.name ∉ modeCannon.map (·.1)) ∧
    (∀ kv ∈ D, ∃ d ∈ cfgFields, d.name = kv.1 ∧ HasType d.type kv.2 ∧
      (d.dflt ≠ .none → SameValue kv.2 d.dflt) ∧
      (d.dflt = .none → ∃ v, (kv.1, v) ∈ poleSouth ∧ SameValue kv.2 v)) := by
  have hn : (defaultFile.map (·.1)).Nodup := by
    unfold defaultFile
    rw [List.map_map]
    exact cfgNames_nodup.sublist (List.filter_sublist.map _)
  refine ⟨defaultFile, default_file, hn, ?_, ?_⟩
  · intro d hd
    rw [← left_table d hd]
    unfold defaultFile
    constructor
    · rintro ⟨v, hv⟩
      obtain ⟨d', hd', e⟩ := List.mem_map.1 hv
      rw [List.mem_filter, decide_eq_true_eq] at hd'
      rw [Prod.mk.injEq] at e
      rw [← e.1]
      exact hd'.2
    · intro h
      exact ⟨_, List.mem_map.2 ⟨d, List.mem_filter.2 ⟨hd, decide_eq_true h⟩, rfl⟩⟩
  · intro kv hkv
    obtain ⟨d, hd, e1, e2, e3⟩ := file_keys kv.1 (List.mem_map.2 ⟨kv, hkv, rfl⟩)
    rw [kget_of_mem hn hkv, Option.some.injEq] at e3
    obtain ⟨t1, t2, t3⟩ := value_table d hd e2
    rw [← e3, ← e1] at *
    refine ⟨d, hd, rfl, (isInstance_iff _ _).1 t1, fun h => sameB_same (t2 h), fun h => ?_⟩
    obtain ⟨kv', h1, h2, h3⟩ := t3 h
    exact ⟨kv'.2, h2 ▸ h1, sameB_same h3⟩

/-- **C82** (edits, partial) reading the default file after changing or adding any entries gives
what the constructor gives for these entries alone, in any environment, errors included.
Missing: changing the pole to the north without giving the five options that depend on it,
see `C82_pole_refuted`. -/
theorem C82_edits_partial (env env' : Env) (D kw : List (String × PyVal))
    (hcwd : env.cwd.head? = some '/') (hD : makeDefaultCfg env = .ok D)
    (hnd : (kw.map (·.1)).Nodup)
    (hpole : ("pole", PyVal.str "n".toList) ∉ kw ∨ ∀ p ∈ poleOptions, p ∈ kw.map (·.1)) :
    makeCfg env' (edited D kw) = makeCfg env' kw := by
  rw [default_file env hcwd, Except.ok.injEq] at hD
  subst hD
  have hbad : ∀ kw' : List (String × PyVal), initFields kw' = .error .typeError →
      makeCfg env' kw' = .error .typeError := by
    intro kw' h
    unfold makeCfg
    rw [h]; rfl
  rcases init_all kw with ⟨c0', h0'⟩ | ⟨h0', kv, hkv, hnot⟩
  swap
  · rw [hbad _ h0']
    apply hbad
    rcases init_all (edited defaultFile kw) with ⟨c0, h0⟩ | ⟨h0, -⟩
    · exfalso
      have := (edited_keys kw defaultFile kv.1).2 (.inr (List.mem_map.2 ⟨kv, hkv, rfl⟩))
      obtain ⟨kv', hkv', e⟩ := List.mem_map.1 this
      obtain ⟨d, hd, e'⟩ := (initFields_ok h0).1 kv' hkv'
      exact hnot (List.mem_map.2 ⟨d, hd, e'.trans e⟩)
    · exact h0
  have hkwf : ∀ f ∈ kw.map (·.1), f ∈ cfgFields.map (·.name) := by
    intro f hf
    obtain ⟨kv, hkv, rfl⟩ := List.mem_map.1 hf
    obtain ⟨d, hd, e⟩ := (initFields_ok h0').1 kv hkv
    exact List.mem_map.2 ⟨d, hd, e⟩
  rcases init_all (edited defaultFile kw) with ⟨c0, h0⟩ | ⟨-, kv, hkv, hnot⟩
  swap
  · exfalso
    apply hnot
    rcases (edited_keys kw defaultFile kv.1).1 (List.mem_map.2 ⟨kv, hkv, rfl⟩) with h | h
    · obtain ⟨d, hd, e, -⟩ := file_keys _ h
      exact List.mem_map.2 ⟨d, hd, e⟩
    · exact hkwf _ h
  -- values after `__init__`
  have hin : ∀ f ∈ kw.map (·.1), c0 f = c0' f := by
    intro f hf
    obtain ⟨kv, hkv, rfl⟩ := List.mem_map.1 hf
    rw [init_kget h0, init_kget h0', edited_eq, kget_kupdate_mem kw _ _ kv.2 hnd hkv,
      kget_of_mem hnd hkv]
  have hout' : ∀ f, f ∉ kw.map (·.1) → c0' f = dflt0 f := by
    intro f hf
    rw [init_kget h0', kget_none hf]
  have hout : ∀ f, f ∉ kw.map (·.1) → f ∉ defaultFile.map (·.1) → c0 f = c0' f := by
    intro f hf hf'
    rw [hout' f hf, init_kget h0, edited_eq, kget_kupdate_not _ _ _ hf, kget_none hf']
  have hfile : ∀ f, f ∉ kw.map (·.1) → f ∈ defaultFile.map (·.1) →
      ∃ d ∈ cfgFields, d.name = f ∧ d.name ∉ leftOut ∧ c0 f = fileValue d := by
    intro f hf hf'
    obtain ⟨d, hd, e1, e2, e3⟩ := file_keys f hf'
    exact ⟨d, hd, e1, e2, by rw [init_kget h0, edited_eq, kget_kupdate_not _ _ _ hf, e3]⟩
  have hdf : ∀ d ∈ cfgFields, dflt0 d.name = d.dflt := by
    intro d hd
    unfold dflt0
    rw [find_decl hd]
  have hsame : ∀ f, (isPlain f = false ∨ f ∈ ["mode", "pole", "run_name"]) → c0 f = c0' f := by
    intro f hf
    by_cases h1 : f ∈ kw.map (·.1)
    · exact hin f h1
    by_cases h2 : f ∈ defaultFile.map (·.1)
    swap
    · exact hout f h1 h2
    obtain ⟨d, hd, rfl, e2, e3⟩ := hfile f h1 h2
    rw [e3, hout' _ h1, hdf d hd]
    rcases hf with hf | hf
    · exact (rest_table d hd e2 hf).1
    · exact three_table d hd hf
  apply makeCfg_congr h0 h0' (fun f hf => hsame f (.inl hf))
  · intro f hf
    refine hout f (fun h => hf (hkwf f h)) (fun h => hf ?_)
    obtain ⟨d, hd, e, -⟩ := file_keys f h
    exact List.mem_map.2 ⟨d, hd, e⟩
  · exact hsame _ (.inr (by simp))
  · exact hsame _ (.inr (by simp))
  · exact hsame _ (.inr (by simp))
  · intro md pd hmd hpd d hd hpl
    obtain ⟨sm, -, hsm'⟩ := dictGet_ok hmd
    obtain ⟨sp, hsp, hsp'⟩ := dictGet_ok hpd
    by_cases h1 : d.name ∈ kw.map (·.1)
    · rw [fill_congr _ _ _ _ (fill_congr _ _ _ _ (hin _ h1))]
    by_cases h2 : d.name ∈ defaultFile.map (·.1)
    swap
    · rw [fill_congr _ _ _ _ (fill_congr _ _ _ _ (hout _ h1 h2))]
    obtain ⟨d', hd', e1, e2, e3⟩ := hfile _ h1 h2
    have := (List.inj_on_of_nodup_map cfgNames_nodup) hd' hd e1
    subst this
    obtain ⟨t1, t2, t3, t4, -⟩ := file_table d' hd' e2 hpl
    have hp : d'.name ∉ poleOptions ∨ sp = "s".toList := by
      by_cases hpo : d'.name ∈ poleOptions
      · right
        rcases hpole with hpole | hpole
        · have : sp = "s".toList ∨ sp = "n".toList := by
            simp only [poleDict, List.mem_cons, Prod.mk.injEq, List.not_mem_nil, or_false] at hsp'
            tauto
          refine this.resolve_right (fun hn => ?_)
          rw [hn] at hsp
          rw [hsame "pole" (.inr (by simp)), init_kget h0'] at hsp
          cases hk : kget kw "pole" with
          | none =>
            rw [hk] at hsp
            revert hsp
            decide +kernel
          | some v =>
            rw [hk] at hsp
            simp only [] at hsp
            exact hpole (hsp ▸ mem_of_kget hk)
        · exact absurd (hpole _ hpo) h1
      · exact .inl hpo
    have hfill := fill_table (sm, md) hsm' (sp, pd) hsp' d' hd' e2 hpl hp
    simp only [] at hfill
    rw [fill_congr _ _ _ _ (fill_congr _ _ _ _ (hout' _ h1)), hfill,
      envFree_eq t3 env' bareEnv, toOption_some t4]
    have h3 : fillNone c0 md d'.name = fileValue d' := by
      rw [fillNone_of_ne_none _ _ _ (by rw [e3]; exact t2), e3]
    rw [fillNone_of_ne_none _ _ _ (by rw [h3]; exact t2), h3, isInstance_id t1]

/-- **C82** (unchanged file) reading the default file, with or without a seed from the command line,
is the same as giving no file. -/
theorem C82_unchanged (env env' : Env) (D : List (String × PyVal))
    (hcwd : env.cwd.head? = some '/') (hD : makeDefaultCfg env = .ok D) (seed : Option Int) :
    readCustomCfg env' (some D) seed = readCustomCfg env' none seed := by
  unfold readCustomCfg fromDict
  cases seed with
  | none =>
    have := C82_edits_partial env env' D [] hcwd hD (by simp) (.inl (by simp))
    exact this
  | some n =>
    have := C82_edits_partial env env' D [("seed", .int n)] hcwd hD (by simp) (.inl (by simp))
    exact this

theorem file_entries : kget defaultFile "mode" = some (.str "moonpies".toList) ∧
    (∀ q ∈ southValues, kget defaultFile q.1 = some (.float q.2) ∧ (q.1, PyType.float) ∈ options ∧
      q.1 ≠ "pole") ∧
    (kget defaultFile "coldtrap_names" =
      some (.tuple (southNames.map (fun x => .str x.toList))) ∧
      ("coldtrap_names", PyType.tuple) ∈ options) ∧
    ∀ q ∈ northValues, q.1 ≠ "pole" := by decide +kernel

theorem omitted_north (p : String) (h : p ≠ "pole") :
    Omitted [("pole", PyVal.str "n".toList)] p :=
  .inl (by simpa using h)

theorem pole_decl : ∃ d ∈ cfgFields, d.name = "pole" ∧ d.type = .str := by decide +kernel

/-- **C82** does not hold for the pole: after changing only `pole` to `n` in the default file, the
configuration has the cold traps, areas and efficiencies of the south pole, while the
constructor given `pole = n` uses those of the north pole.  This is so in every environment. -/
theorem C82_pole_refuted (env env' : Env) (D : List (String × PyVal))
    (hcwd : env.cwd.head? = some '/') (hD : makeDefaultCfg env = .ok D) :
    ∃ c c', makeCfg env' (edited D [("pole", .str "n".toList)]) = .ok c ∧
      makeCfg env' [("pole", .str "n".toList)] = .ok c' ∧
      c "pole" = .str "n".toList ∧ c' "pole" = .str "n".toList ∧
      (∀ q ∈ southValues, c q.1 = .float q.2) ∧
      c "coldtrap_names" = .tuple (southNames.map (fun x => .str x.toList)) ∧
      (∀ q ∈ northValues, c' q.1 = .float q.2) ∧
      c' "coldtrap_names" = .tuple (northNames.map (fun x => .str x.toList)) := by
  rw [default_file env hcwd, Except.ok.injEq] at hD
  subst hD
  have hn : (defaultFile.map (·.1)).Nodup := by
    unfold defaultFile
    rw [List.map_map]
    exact cfgNames_nodup.sublist (List.filter_sublist.map _)
  have hn' : ((edited defaultFile [("pole", .str "n".toList)]).map (·.1)).Nodup := by
    rw [edited_eq]
    have := kset_nodup hn "pole" (PyVal.str "n".toList)
    exact this
  have hmem : ∀ k v, (k, v) ∈ defaultFile → k ≠ "pole" →
      (k, v) ∈ edited defaultFile [("pole", .str "n".toList)] := by
    intro k v h hk
    rw [edited_eq]
    apply mem_of_kget
    rw [kget_kupdate_not _ _ _ (by simpa using hk)]
    exact kget_of_mem hn h
  have hpole : ("pole", PyVal.str "n".toList) ∈ edited defaultFile [("pole", .str "n".toList)] := by
    rw [edited_eq]
    exact mem_of_kget (kget_kupdate_mem _ _ _ _ (by simp) (by simp))
  have hval : ∀ kv ∈ edited defaultFile [("pole", PyVal.str "n".toList)],
      kv = ("pole", .str "n".toList) ∨ kv ∈ defaultFile := by
    intro kv hkv
    have hk := kget_of_mem hn' hkv
    rw [edited_eq] at hk
    by_cases e : kv.1 = "pole"
    · rw [e, kget_kupdate_mem _ _ _ (.str "n".toList) (by simp) (by simp), Option.some.injEq] at hk
      left
      rw [hk, ← e]
    · rw [kget_kupdate_not _ _ _ (by simpa using e)] at hk
      exact .inr (mem_of_kget hk)
  have hg : GoodArgs (edited defaultFile [("pole", .str "n".toList)]) := by
    refine ⟨hn', ?_, ?_, ?_⟩
    · intro kv hkv
      rcases hval kv hkv with rfl | h
      · obtain ⟨d, hd, e, e'⟩ := pole_decl
        exact ⟨d, hd, e, .inl (.has (by rw [e']; exact .str _))⟩
      · obtain ⟨d, hd, e1, e2, e3⟩ := file_keys kv.1 (List.mem_map.2 ⟨kv, h, rfl⟩)
        rw [kget_of_mem hn h, Option.some.injEq] at e3
        refine ⟨d, hd, e1, .inl (.has ?_)⟩
        rw [e3]
        exact (isInstance_iff _ _).1 (value_table d hd e2).1
    · intro v hv
      rcases hval _ hv with h | h
      · simp at h
      · have := kget_of_mem hn h
        rw [file_entries.1, Option.some.injEq] at this
        exact .inr this.symm
    · intro v hv
      have := kget_of_mem hn' hv
      rw [kget_of_mem hn' hpole, Option.some.injEq] at this
      exact .inr this.symm
  have hg' : GoodArgs [("pole", .str "n".toList)] := by
    refine ⟨by simp, ?_, by simp, by simp⟩
    intro kv hkv
    rw [List.mem_singleton] at hkv
    subst hkv
    obtain ⟨d, hd, e, e'⟩ := pole_decl
    exact ⟨d, hd, e, .inl (.has (by rw [e']; exact .str _))⟩
  obtain ⟨c, hc, -⟩ := C79_accepted env' _ hg
  obtain ⟨c', hc', -⟩ := C79_accepted env' _ hg'
  have p1 := (C53_mode_pole env' _ c hc hn').2.2.2.1 _ hpole
  have p2 := (C53_mode_pole env' _ c' hc' (by simp)).2.2.2.1 (.str "n".toList) (by simp)
  have north := (C53_pole_defaults env' _ c' hc' (by simp)).2 p2
  refine ⟨c, c', hc, hc', p1, p2, ?_, ?_, ?_, ?_⟩
  · intro q hq
    obtain ⟨f1, f2, f3⟩ := file_entries.2.1 q hq
    exact (C53_explicit env' _ c hc hn' q.1 .float f2 (.float q.2)
      (hmem _ _ (mem_of_kget f1) f3) (by simp)).1 (.float _)
  · obtain ⟨f1, f2⟩ := file_entries.2.2.1
    exact (C53_explicit env' _ c hc hn' "coldtrap_names" .tuple f2 _
      (hmem _ _ (mem_of_kget f1) (by decide)) (by simp)).1 (.tuple _)
  · intro q hq
    exact north.1 q hq (omitted_north q.1 (file_entries.2.2.2 q hq))
  · exact north.2 (omitted_north _ (by decide))

/-- A file with a changed mode, time step and seed, read on another machine. -/
example (env' : Env) (D : List (String × PyVal)) (hD : makeDefaultCfg env0 = .ok D) :
    makeCfg env' (edited D [("mode", .str "cannon".toList), ("timestep", .int 1000000),
      ("seed", .int 7)]) =
    makeCfg env' [("mode", .str "cannon".toList), ("timestep", .int 1000000), ("seed", .int 7)] :=
  C82_edits_partial env0 env' D _ (by decide) hD (by decide) (.inl (by simp))

/-- Giving all five options along with the pole works. -/
example (env' : Env) (D : List (String × PyVal)) (hD : makeDefaultCfg env0 = .ok D) :
    makeCfg env' (edited D (("pole", .str "n".toList) :: poleNorth)) =
      makeCfg env' (("pole", .str "n".toList) :: poleNorth) :=
  C82_edits_partial env0 env' D _ (by decide) hD (by decide) (.inr (by decide))

/-- An unknown entry is rejected in both. -/
example (env' : Env) (D : List (String × PyVal)) (hD : makeDefaultCfg env0 = .ok D) :
    makeCfg env' (edited D [("tmestep", .int 1)]) = .error .typeError := by
  rw [C82_edits_partial env0 env' D _ (by decide) hD (by decide) (.inl (by simp))]
  rfl

/-- Some entries of the file. -/
example : ∃ D, makeDefaultCfg env0 = .ok D ∧ ("grdstep", PyVal.int 1000) ∈ D ∧
    ("out_path", PyVal.str []) ∈ D ∧ ("ej_t_csv_out", PyVal.str "ej_columns.csv".toList) ∈ D ∧
    ("coldtrap_area_H2O", PyVal.float 13000000000) ∈ D :=
  ⟨defaultFile, default_file env0 (by decide), by decide +kernel⟩

end MoonPIES
