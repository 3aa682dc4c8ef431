import Mathlib.Data.List.Nodup
import Verif.Model.Config

/-!
# Lemmas about the steps of `Cfg.__post_init__`
-/

namespace MoonPIES

/-- A field that no step before the type check touches, except for filling in `None`. -/
def isPlain (f : String) : Bool :=
  decide (f ≠ "seed") && decide (f ≠ "run_date") && decide (f ≠ "run_time") &&
  !("_in".toList.isSuffixOf f.toList) && !("_out".toList.isSuffixOf f.toList) &&
  !("_path".toList.isSuffixOf f.toList)

theorem cfgNames_nodup : (cfgFields.map (·.name)).Nodup := by decide +kernel

/-- Loop shared by `makeAbsolute` and `enforceTypes`. -/
def mapFields (g : FieldDecl → PyVal → Except PyErr PyVal) :
    List FieldDecl → CfgVals → Except PyErr CfgVals
  | [], c => .ok c
  | d :: ds, c => match g d (c d.name) with
    | .error e => .error e
    | .ok v => mapFields g ds (setAttr c d.name v)

theorem enforceTypes_eq (env : Env) (ds : List FieldDecl) (c : CfgVals) :
    enforceTypes env ds c = mapFields (enforceOne env) ds c := by
  induction ds generalizing c with
  | nil => rfl
  | cons d ds ih =>
    unfold enforceTypes mapFields
    cases enforceOne env d (c d.name) with
    | error e => rfl
    | ok v => exact ih _

theorem makeAbsolute_eq (env : Env) (data : PyVal) (out : Str) (ds : List FieldDecl) (c : CfgVals) :
    makeAbsolute env data out ds c = mapFields (fun d => absField env data out d.name) ds c := by
  induction ds generalizing c with
  | nil => rfl
  | cons d ds ih =>
    unfold makeAbsolute mapFields
    cases absField env data out d.name (c d.name) with
    | error e => rfl
    | ok v => exact ih _

theorem setAttr_same (c : CfgVals) (k : String) (v : PyVal) : setAttr c k v k = v := by
  simp [setAttr]

theorem setAttr_ne (c : CfgVals) {k f : String} (v : PyVal) (h : f ≠ k) : setAttr c k v f = c f := by
  simp [setAttr, h]

theorem mapFields_spec (g : FieldDecl → PyVal → Except PyErr PyVal) (ds : List FieldDecl)
    (hnd : (ds.map (·.name)).Nodup) : ∀ c c', mapFields g ds c = .ok c' →
      (∀ d ∈ ds, g d (c d.name) = .ok (c' d.name)) ∧
      ∀ f, f ∉ ds.map (·.name) → c' f = c f := by
  induction ds with
  | nil => intro c c' h; cases h; simp
  | cons d ds ih =>
    intro c c' h
    rw [List.map_cons, List.nodup_cons] at hnd
    unfold mapFields at h
    cases hg : g d (c d.name) with
    | error e => rw [hg] at h; cases h
    | ok v =>
      rw [hg] at h
      obtain ⟨h1, h2⟩ := ih hnd.2 _ _ h
      constructor
      · intro d' hd'
        rcases List.mem_cons.1 hd' with rfl | hd'
        · rw [hg, h2 _ hnd.1, setAttr_same]
        · have hne : d'.name ≠ d.name := by
            intro e; exact hnd.1 (e ▸ List.mem_map.2 ⟨d', hd', rfl⟩)
          have := h1 d' hd'
          rwa [setAttr_ne _ _ hne] at this
      · intro f hf
        rw [List.map_cons, List.mem_cons, not_or] at hf
        rw [h2 f hf.2, setAttr_ne _ _ hf.1]

theorem mapFields_ok (g : FieldDecl → PyVal → Except PyErr PyVal) (ds : List FieldDecl)
    (hnd : (ds.map (·.name)).Nodup) : ∀ c, (∀ d ∈ ds, ∃ v, g d (c d.name) = .ok v) →
      ∃ c', mapFields g ds c = .ok c' := by
  induction ds with
  | nil => intro c _; exact ⟨c, rfl⟩
  | cons d ds ih =>
    intro c h
    rw [List.map_cons, List.nodup_cons] at hnd
    obtain ⟨v, hv⟩ := h d (by simp)
    obtain ⟨c', hc'⟩ := ih hnd.2 (setAttr c d.name v) (by
      intro d' hd'
      have hne : d'.name ≠ d.name := by
        intro e; exact hnd.1 (e ▸ List.mem_map.2 ⟨d', hd', rfl⟩)
      rw [setAttr_ne _ _ hne]
      exact h d' (by simp [hd']))
    refine ⟨c', ?_⟩
    unfold mapFields
    rw [hv]
    exact hc'

theorem fillNone_of_ne_none (d : List (String × PyVal)) : ∀ (c : CfgVals) (f : String), c f ≠ .none →
    fillNone c d f = c f := by
  induction d with
  | nil => intro c f _; rfl
  | cons pv d ih =>
    intro c f h
    obtain ⟨p, v⟩ := pv
    unfold fillNone
    by_cases hp : c p = .none
    · rw [if_pos hp]
      have hne : f ≠ p := by rintro rfl; exact h hp
      rw [ih _ _ (by rw [setAttr_ne _ _ hne]; exact h), setAttr_ne _ _ hne]
    · rw [if_neg hp]; exact ih c f h

theorem fillNone_not_mem (d : List (String × PyVal)) : ∀ (c : CfgVals) (f : String), f ∉ d.map (·.1) →
    fillNone c d f = c f := by
  induction d with
  | nil => intro c f _; rfl
  | cons pv d ih =>
    intro c f h
    obtain ⟨p, v⟩ := pv
    rw [List.map_cons, List.mem_cons, not_or] at h
    unfold fillNone
    rw [ih _ _ h.2]
    by_cases hp : c p = .none
    · rw [if_pos hp, setAttr_ne _ _ h.1]
    · rw [if_neg hp]

theorem fillNone_mem (d : List (String × PyVal)) : ∀ (c : CfgVals) (f : String) (v : PyVal),
    (d.map (·.1)).Nodup → (f, v) ∈ d → c f = .none → fillNone c d f = v := by
  induction d with
  | nil => intro c f v _ h; simp at h
  | cons pv d ih =>
    intro c f v hnd h hc
    obtain ⟨p, w⟩ := pv
    rw [List.map_cons, List.nodup_cons] at hnd
    unfold fillNone
    rcases List.mem_cons.1 h with e | h'
    · cases e
      rw [if_pos hc, fillNone_not_mem _ _ _ hnd.1, setAttr_same]
    · have hne : f ≠ p := by
        rintro rfl; exact hnd.1 (List.mem_map.2 ⟨_, h', rfl⟩)
      apply ih _ _ _ hnd.2 h'
      by_cases hp : c p = .none
      · rw [if_pos hp, setAttr_ne _ _ hne]; exact hc
      · rw [if_neg hp]; exact hc

/-- The two tables of defaults. -/
def modeDict : List (Str × List (String × PyVal)) :=
  [("cannon".toList, modeCannon), ("moonpies".toList, modeMoonpies)]

/-- See `modeDict`. -/
def poleDict : List (Str × List (String × PyVal)) := [("s".toList, poleSouth), ("n".toList, poleNorth)]

theorem dictGet_ok {d : List (Str × List (String × PyVal))} {k : PyVal} {r : List (String × PyVal)}
    (h : dictGet d k = .ok r) : ∃ s, k = .str s ∧ (s, r) ∈ d := by
  unfold dictGet at h
  cases k with
  | str s =>
    refine ⟨s, rfl, ?_⟩
    simp only [] at h
    cases hf : d.find? (fun e => decide (e.1 = s)) with
    | none => rw [hf] at h; cases h
    | some e =>
      rw [hf] at h
      cases h
      have h1 := List.find?_some hf
      have h2 := List.mem_of_find?_eq_some hf
      simp only [decide_eq_true_eq] at h1
      rw [← h1]; exact h2
  | _ => cases h

/-- What a successful construction went through. -/
structure Steps (env : Env) (kw : List (String × PyVal)) (c c0 c4 c5 : CfgVals) (n : Int)
    (md pd : List (String × PyVal)) (out : Str) : Prop where
  init : initFields kw = .ok c0
  seed : getRandomSeed env (c0 "seed") = .ok n
  mode : dictGet modeDict (c0 "mode") = .ok md
  pole : dictGet poleDict (c0 "pole") = .ok pd
  outp : getOutPath env (c0 "out_path") n (c0 "run_name") = .ok out
  c4_seed : c4 "seed" = .int n
  c4_date : c4 "run_date" = .str env.date
  c4_time : c4 "run_time" = .str env.time
  c4_out : c4 "out_path" = .str out
  c4_data : c4 "data_path" = if c0 "data_path" ≠ .str [] then c0 "data_path" else
    .str (env.dataDir ++ ['/'])
  c4_figs : c4 "figs_path" = if c0 "figs_path" ≠ .str [] then c0 "figs_path" else
      .str (absPath env.cwd (pathJoin (pathJoin (pathJoin out "..".toList) "..".toList)
        "figures".toList) ++ ['/'])
  c4_rest : ∀ f, f ≠ "seed" → f ≠ "run_date" → f ≠ "run_time" → f ≠ "data_path" →
    f ≠ "out_path" → f ≠ "figs_path" → c4 f = fillNone (fillNone c0 md) pd f
  abs : ∀ d ∈ cfgFields, absField env (c4 "data_path") out d.name (c4 d.name) = .ok (c5 d.name)
  types : ∀ d ∈ cfgFields, enforceOne env d (c5 d.name) = .ok (c d.name)

theorem fill_congr (d : List (String × PyVal)) : ∀ (c c' : CfgVals) (f : String), c f = c' f →
    fillNone c d f = fillNone c' d f := by
  induction d with
  | nil => intro c c' f h; exact h
  | cons pv d ih =>
    intro c c' f h
    obtain ⟨p, v⟩ := pv
    unfold fillNone
    apply ih
    by_cases e : f = p
    · subst e
      rw [← h]
      by_cases hp : c f = .none
      · rw [if_pos hp, if_pos hp, setAttr_same, setAttr_same]
      · rw [if_neg hp, if_neg hp, h]
    · have : ∀ c : CfgVals, (if c p = .none then setAttr c p v else c) f = c f := by
        intro c
        by_cases hp : c p = .none
        · rw [if_pos hp, setAttr_ne _ _ e]
        · rw [if_neg hp]
      rw [this, this, h]

theorem tables_avoid : ∀ e ∈ modeDict ++ poleDict, ∀ f ∈ ["seed", "run_date", "run_time", "mode", "pole",
    "run_name", "data_path", "out_path", "figs_path"], f ∉ e.2.map (·.1) := by decide +kernel

theorem tables_nodup : ∀ e ∈ modeDict ++ poleDict, (e.2.map (·.1)).Nodup := by decide +kernel

theorem makeCfg_steps {env : Env} {kw : List (String × PyVal)} {c : CfgVals}
    (h : makeCfg env kw = .ok c) : ∃ c0 c4 c5 n md pd out, Steps env kw c c0 c4 c5 n md pd out := by
  unfold makeCfg at h
  simp only [bind, Except.bind] at h
  cases h0 : initFields kw with
  | error e => rw [h0] at h; cases h
  | ok c0 =>
  rw [h0] at h; simp only [] at h
  cases hs : getRandomSeed env (c0 "seed") with
  | error e => unfold setSeedTime at h; rw [hs] at h; cases h
  | ok n =>
  obtain ⟨c1, hc1⟩ : ∃ t, t = setAttr (setAttr (setAttr c0 "seed" (.int n)) "run_date"
    (.str env.date)) "run_time" (.str env.time) := ⟨_, rfl⟩
  have h1 : setSeedTime env c0 = .ok c1 := by unfold setSeedTime; rw [hs, hc1]
  rw [h1] at h; simp only [] at h
  have hc1r : ∀ f, f ≠ "seed" → f ≠ "run_date" → f ≠ "run_time" → c1 f = c0 f := by
    intro f a b d
    rw [hc1, setAttr_ne _ _ d, setAttr_ne _ _ b, setAttr_ne _ _ a]
  have hm0 : c1 "mode" = c0 "mode" := hc1r _ (by decide) (by decide) (by decide)
  cases hmd : dictGet modeDict (c0 "mode") with
  | error e =>
    have : setModeDefaults c1 = .error e := by
      unfold setModeDefaults
      rw [hm0]
      unfold modeDict at hmd
      rw [hmd]
    rw [this] at h; cases h
  | ok md =>
  have h2 : setModeDefaults c1 = .ok (fillNone c1 md) := by
    unfold setModeDefaults
    rw [hm0]
    unfold modeDict at hmd
    rw [hmd]
  rw [h2] at h; simp only [] at h
  obtain ⟨sm, hsm, hsm'⟩ := dictGet_ok hmd
  have hav := tables_avoid (sm, md) (List.mem_append_left _ hsm')
  have hp0 : fillNone c1 md "pole" = c0 "pole" := by
    rw [fillNone_not_mem _ _ _ (hav _ (by simp)), hc1r _ (by decide) (by decide) (by decide)]
  cases hpd : dictGet poleDict (c0 "pole") with
  | error e =>
    have : setPoleDefaults (fillNone c1 md) = .error e := by
      unfold setPoleDefaults
      rw [hp0]
      unfold poleDict at hpd
      rw [hpd]
    rw [this] at h; cases h
  | ok pd =>
  have h3 : setPoleDefaults (fillNone c1 md) = .ok (fillNone (fillNone c1 md) pd) := by
    unfold setPoleDefaults
    rw [hp0]
    unfold poleDict at hpd
    rw [hpd]
  rw [h3] at h; simp only [] at h
  obtain ⟨sp, hsp, hsp'⟩ := dictGet_ok hpd
  have hav' := tables_avoid (sp, pd) (List.mem_append_right _ hsp')
  obtain ⟨c3, hc3⟩ : ∃ t, t = fillNone (fillNone c1 md) pd := ⟨_, rfl⟩
  rw [← hc3] at h
  have hc3a : ∀ f ∈ ["seed", "run_date", "run_time", "mode", "pole",
    "run_name", "data_path", "out_path", "figs_path"], c3 f = c1 f := by
    intro f hf
    rw [hc3, fillNone_not_mem _ _ _ (hav' f hf), fillNone_not_mem _ _ _ (hav f hf)]
  have es : c3 "seed" = .int n := by
    rw [hc3a _ (by simp), hc1, setAttr_ne _ _ (by decide), setAttr_ne _ _ (by decide), setAttr_same]
  have eo : c3 "out_path" = c0 "out_path" := by
    rw [hc3a _ (by simp), hc1r _ (by decide) (by decide) (by decide)]
  have er : c3 "run_name" = c0 "run_name" := by
    rw [hc3a _ (by simp), hc1r _ (by decide) (by decide) (by decide)]
  have ed : c3 "data_path" = c0 "data_path" := by
    rw [hc3a _ (by simp), hc1r _ (by decide) (by decide) (by decide)]
  have ef : c3 "figs_path" = c0 "figs_path" := by
    rw [hc3a _ (by simp), hc1r _ (by decide) (by decide) (by decide)]
  cases hout : getOutPath env (c0 "out_path") n (c0 "run_name") with
  | error e =>
    have : setPathDefaults env (intVal (c3 "seed")) c3 = .error e := by
      unfold setPathDefaults
      rw [es, eo, er]
      show (match getOutPath env (c0 "out_path") n (c0 "run_name") with
        | .error e => _ | .ok out => _) = _
      rw [hout]
    rw [this] at h; cases h
  | ok out =>
  obtain ⟨c4, hc4⟩ : ∃ t, setPathDefaults env (intVal (c3 "seed")) c3 = .ok t := by
    unfold setPathDefaults
    rw [es, eo, er]
    simp only [intVal]
    rw [hout]
    exact ⟨_, rfl⟩
  rw [hc4] at h; simp only [] at h
  unfold setPathDefaults at hc4
  rw [es, eo, er, ed, ef] at hc4
  simp only [intVal] at hc4
  rw [hout] at hc4
  simp only [Except.ok.injEq] at hc4
  have k1 : c4 "out_path" = .str out := by
    rw [← hc4, setAttr_ne _ _ (by decide), setAttr_same]
  rw [k1] at h
  simp only [strVal] at h
  rw [makeAbsolute_eq] at h
  cases hc5 : mapFields (fun d => absField env (c4 "data_path") out d.name) cfgFields c4 with
  | error e => rw [hc5] at h; cases h
  | ok c5 =>
  rw [hc5] at h; simp only [] at h
  rw [enforceTypes_eq] at h
  have hrest : ∀ f, f ≠ "data_path" → f ≠ "out_path" → f ≠ "figs_path" → c4 f = c3 f := by
    intro f a b d
    rw [← hc4, setAttr_ne _ _ d, setAttr_ne _ _ b, setAttr_ne _ _ a]
  refine ⟨c0, c4, c5, n, md, pd, out, ⟨h0, hs, hmd, hpd, hout, ?_, ?_, ?_, k1, ?_, ?_, ?_, ?_, ?_⟩⟩
  · rw [hrest _ (by decide) (by decide) (by decide), es]
  · rw [hrest _ (by decide) (by decide) (by decide), hc3a _ (by simp), hc1,
      setAttr_ne _ _ (by decide), setAttr_same]
  · rw [hrest _ (by decide) (by decide) (by decide), hc3a _ (by simp), hc1, setAttr_same]
  · rw [← hc4, setAttr_ne _ _ (by decide), setAttr_ne _ _ (by decide), setAttr_same]
  · rw [← hc4, setAttr_same]
  · intro f a1 a2 a3 a4 a5 a6
    rw [hrest f a4 a5 a6, hc3]
    exact fill_congr _ _ _ _ (fill_congr _ _ _ _ (hc1r f a1 a2 a3))
  · exact (mapFields_spec _ _ cfgNames_nodup _ _ hc5).1
  · exact (mapFields_spec _ _ cfgNames_nodup _ _ h).1

theorem isPlain_ne {f : String} (h : isPlain f = true) :
    f ≠ "seed" ∧ f ≠ "run_date" ∧ f ≠ "run_time" ∧ f ≠ "data_path" ∧ f ≠ "out_path" ∧
      f ≠ "figs_path" := by
  refine ⟨?_, ?_, ?_, ?_, ?_, ?_⟩ <;> (rintro rfl; revert h; decide +kernel)

theorem absField_plain (env : Env) (data : PyVal) (out : Str) {f : String} (v : PyVal)
    (h : isPlain f = true) : absField env data out f v = .ok v := by
  unfold isPlain at h
  simp only [Bool.and_eq_true, Bool.not_eq_true', decide_eq_true_eq] at h
  unfold absField
  cases v with
  | str s =>
    simp only []
    rw [h.1.1.2, h.1.2, h.2]
    rfl
  | _ => rfl

/-- A plain field: its value is the given or default one, `None` filled in, type checked. -/
theorem Steps.plain {env : Env} {kw : List (String × PyVal)} {c c0 c4 c5 : CfgVals} {n : Int}
    {md pd : List (String × PyVal)} {out : Str} (h : Steps env kw c c0 c4 c5 n md pd out)
    {d : FieldDecl} (hd : d ∈ cfgFields) (hp : isPlain d.name = true) :
    enforceOne env d (fillNone (fillNone c0 md) pd d.name) = .ok (c d.name) := by
  obtain ⟨a1, a2, a3, a4, a5, a6⟩ := isPlain_ne hp
  have h1 := h.abs d hd
  rw [absField_plain _ _ _ _ hp, Except.ok.injEq, h.c4_rest _ a1 a2 a3 a4 a5 a6] at h1
  rw [h1]
  exact h.types d hd

theorem initFields_ok {kw : List (String × PyVal)} {c0 : CfgVals} (h : initFields kw = .ok c0) :
    (∀ kv ∈ kw, ∃ d ∈ cfgFields, d.name = kv.1) ∧
    (∀ f v, (kw.map (·.1)).Nodup → (f, v) ∈ kw → c0 f = v) ∧
    ∀ d ∈ cfgFields, d.name ∉ kw.map (·.1) → c0 d.name = d.dflt := by
  unfold initFields at h
  split at h
  · rename_i hall
    cases h
    refine ⟨?_, ?_, ?_⟩
    · intro kv hkv
      have := List.all_eq_true.1 hall kv hkv
      obtain ⟨d, hd, he⟩ := List.any_eq_true.1 this
      exact ⟨d, hd, by simpa using he⟩
    · intro f v hnd hmem
      have hf : kw.find? (fun kv => decide (kv.1 = f)) = some (f, v) := by
        clear hall
        induction kw with
        | nil => simp at hmem
        | cons a kw ih =>
          rw [List.map_cons, List.nodup_cons] at hnd
          rcases List.mem_cons.1 hmem with rfl | hmem
          · simp
          · have : a.1 ≠ f := by
              rintro rfl; exact hnd.1 (List.mem_map.2 ⟨_, hmem, rfl⟩)
            rw [List.find?_cons_of_neg (by simpa using this)]
            exact ih hnd.2 hmem
      simp only [hf]
    · intro d hd hnot
      have hf : kw.find? (fun kv => decide (kv.1 = d.name)) = none := by
        rw [List.find?_eq_none]
        intro kv hkv
        simp only [decide_eq_true_eq]
        intro e
        exact hnot (e ▸ List.mem_map.2 ⟨kv, hkv, rfl⟩)
      have hg : cfgFields.find? (fun x => decide (x.name = d.name)) = some d := by
        cases hx : cfgFields.find? (fun x => decide (x.name = d.name)) with
        | none =>
          rw [List.find?_eq_none] at hx
          exact absurd (decide_eq_true (rfl : d.name = d.name)) (hx d hd)
        | some x =>
          have e1 := List.find?_some hx
          have e2 := List.mem_of_find?_eq_some hx
          simp only [decide_eq_true_eq] at e1
          rw [(List.inj_on_of_nodup_map cfgNames_nodup) e2 hd e1]
      simp only [hf, hg]
  · cases h

end MoonPIES
