import Verif.Lemmas.Config

/-!
# Arguments that give the same configuration
-/

namespace MoonPIES

theorem mapFields_rel (g : FieldDecl → PyVal → Except PyErr PyVal)
    (R : FieldDecl → PyVal → PyVal → Prop) (ds : List FieldDecl)
    (hnd : (ds.map (·.name)).Nodup) : ∀ c c' : CfgVals,
    (∀ d ∈ ds, (∃ e, g d (c d.name) = .error e ∧ g d (c' d.name) = .error e) ∨
      ∃ v v', g d (c d.name) = .ok v ∧ g d (c' d.name) = .ok v' ∧ R d v v') →
    (∃ e, mapFields g ds c = .error e ∧ mapFields g ds c' = .error e) ∨
    ∃ u u', mapFields g ds c = .ok u ∧ mapFields g ds c' = .ok u' ∧
      (∀ d ∈ ds, R d (u d.name) (u' d.name)) ∧
      ∀ f, f ∉ ds.map (·.name) → u f = c f ∧ u' f = c' f := by
  induction ds with
  | nil => intro c c' _; exact .inr ⟨c, c', rfl, rfl, by simp, by simp⟩
  | cons d ds ih =>
    intro c c' h
    rw [List.map_cons, List.nodup_cons] at hnd
    unfold mapFields
    rcases h d List.mem_cons_self with ⟨e, h1, h2⟩ | ⟨v, v', h1, h2, hr⟩
    · left
      rw [h1, h2]
      exact ⟨e, rfl, rfl⟩
    · rw [h1, h2]
      simp only []
      have hne : ∀ d' ∈ ds, d'.name ≠ d.name := by
        intro d' hd' e; exact hnd.1 (e ▸ List.mem_map.2 ⟨d', hd', rfl⟩)
      rcases ih hnd.2 (setAttr c d.name v) (setAttr c' d.name v') (by
        intro d' hd'
        rw [setAttr_ne _ _ (hne d' hd'), setAttr_ne _ _ (hne d' hd')]
        exact h d' (List.mem_cons_of_mem _ hd')) with h' | ⟨u, u', e1, e2, e3, e4⟩
      · exact .inl h'
      · refine .inr ⟨u, u', e1, e2, ?_, ?_⟩
        · intro d' hd'
          rcases List.mem_cons.1 hd' with rfl | hd'
          · rw [(e4 _ hnd.1).1, (e4 _ hnd.1).2, setAttr_same, setAttr_same]
            exact hr
          · exact e3 d' hd'
        · intro f hf
          rw [List.map_cons, List.mem_cons, not_or] at hf
          rw [(e4 f hf.2).1, (e4 f hf.2).2, setAttr_ne _ _ hf.1, setAttr_ne _ _ hf.1]
          exact ⟨rfl, rfl⟩

/-- Two sets of arguments give the same result if they agree in the fields that are computed with
and every other field has the same value after filling in defaults and conversion. -/
theorem makeCfg_congr {env : Env} {kw kw' : List (String × PyVal)} {c0 c0' : CfgVals}
    (h0 : initFields kw = .ok c0) (h0' : initFields kw' = .ok c0')
    (hnp : ∀ f, isPlain f = false → c0 f = c0' f)
    (hout : ∀ f, f ∉ cfgFields.map (·.name) → c0 f = c0' f)
    (hm : c0 "mode" = c0' "mode") (hp : c0 "pole" = c0' "pole")
    (hr : c0 "run_name" = c0' "run_name")
    (hpl : ∀ md pd, dictGet modeDict (c0 "mode") = .ok md → dictGet poleDict (c0 "pole") = .ok pd →
      ∀ d ∈ cfgFields, isPlain d.name = true →
        enforceOne env d (fillNone (fillNone c0 md) pd d.name) =
          enforceOne env d (fillNone (fillNone c0' md) pd d.name)) :
    makeCfg env kw = makeCfg env kw' := by
  unfold makeCfg
  simp only [bind, Except.bind]
  rw [h0, h0']
  simp only []
  have npl : ∀ f ∈ ["seed", "run_date", "run_time", "data_path", "out_path", "figs_path"],
      isPlain f = false := by decide +kernel
  have hs : setSeedTime env c0 = (match getRandomSeed env (c0 "seed") with
      | .error e => .error e
      | .ok n => .ok (setAttr (setAttr (setAttr c0 "seed" (.int n)) "run_date" (.str env.date))
        "run_time" (.str env.time))) := rfl
  have hs' : setSeedTime env c0' = (match getRandomSeed env (c0 "seed") with
      | .error e => .error e
      | .ok n => .ok (setAttr (setAttr (setAttr c0' "seed" (.int n)) "run_date" (.str env.date))
        "run_time" (.str env.time))) := by
    rw [hnp "seed" (npl _ (by simp))]; rfl
  rw [hs, hs']
  cases getRandomSeed env (c0 "seed") with
  | error e => rfl
  | ok n =>
  simp only []
  obtain ⟨st, hst⟩ : ∃ t : CfgVals → CfgVals, t = fun c => setAttr (setAttr (setAttr c "seed" (.int n))
    "run_date" (.str env.date)) "run_time" (.str env.time) := ⟨_, rfl⟩
  have e1 : setAttr (setAttr (setAttr c0 "seed" (.int n)) "run_date" (.str env.date))
    "run_time" (.str env.time) = st c0 := by rw [hst]
  have e1' : setAttr (setAttr (setAttr c0' "seed" (.int n)) "run_date" (.str env.date))
    "run_time" (.str env.time) = st c0' := by rw [hst]
  rw [e1, e1']
  have hst1 : ∀ c f, f ≠ "seed" → f ≠ "run_date" → f ≠ "run_time" → st c f = c f := by
    intro c f a b d
    rw [hst]
    simp only []
    rw [setAttr_ne _ _ d, setAttr_ne _ _ b, setAttr_ne _ _ a]
  have hst2 : ∀ f, c0 f = c0' f → st c0 f = st c0' f := by
    intro f h
    rw [hst]
    simp only [setAttr, h]
  have hmode : ∀ c, setModeDefaults (st c) = (match dictGet modeDict (c "mode") with
      | .error e => .error e
      | .ok d => .ok (fillNone (st c) d)) := by
    intro c
    rw [← hst1 c "mode" (by decide) (by decide) (by decide)]
    rfl
  rw [hmode, hmode, ← hm]
  cases hmd : dictGet modeDict (c0 "mode") with
  | error e => rfl
  | ok md =>
  simp only []
  obtain ⟨sm, hsm, hsm'⟩ := dictGet_ok hmd
  have hav := tables_avoid (sm, md) (List.mem_append_left _ hsm')
  have hpole : ∀ c, setPoleDefaults (fillNone (st c) md) = (match dictGet poleDict (c "pole") with
      | .error e => .error e
      | .ok d => .ok (fillNone (fillNone (st c) md) d)) := by
    intro c
    rw [← hst1 c "pole" (by decide) (by decide) (by decide),
      ← fillNone_not_mem md (st c) "pole" (hav _ (by simp))]
    rfl
  rw [hpole, hpole, ← hp]
  cases hpd : dictGet poleDict (c0 "pole") with
  | error e => rfl
  | ok pd =>
  simp only []
  obtain ⟨sp, hsp, hsp'⟩ := dictGet_ok hpd
  have hav' := tables_avoid (sp, pd) (List.mem_append_right _ hsp')
  obtain ⟨c3, hc3⟩ : ∃ t, t = fillNone (fillNone (st c0) md) pd := ⟨_, rfl⟩
  obtain ⟨c3', hc3'⟩ : ∃ t, t = fillNone (fillNone (st c0') md) pd := ⟨_, rfl⟩
  rw [← hc3, ← hc3']
  have same : ∀ f, c0 f = c0' f → c3 f = c3' f := by
    intro f h
    rw [hc3, hc3']
    exact fill_congr _ _ _ _ (fill_congr _ _ _ _ (hst2 f h))
  have plain : ∀ d ∈ cfgFields, isPlain d.name = true →
      enforceOne env d (c3 d.name) = enforceOne env d (c3' d.name) := by
    intro d hd hpl'
    obtain ⟨a1, a2, a3, -⟩ := isPlain_ne hpl'
    have := hpl md pd hmd hpd d hd hpl'
    rw [hc3, hc3', fill_congr _ _ _ _ (fill_congr _ _ _ _ (hst1 c0 d.name a1 a2 a3)),
      fill_congr _ _ _ _ (fill_congr _ _ _ _ (hst1 c0' d.name a1 a2 a3))]
    exact this
  have ks := same "seed" (hnp _ (npl _ (by simp)))
  have ko := same "out_path" (hnp _ (npl _ (by simp)))
  have kd := same "data_path" (hnp _ (npl _ (by simp)))
  have kf := same "figs_path" (hnp _ (npl _ (by simp)))
  have kr := same "run_name" hr
  unfold setPathDefaults
  rw [ks, ko, kd, kf, kr]
  cases getOutPath env (c3' "out_path") (intVal (c3' "seed")) (c3' "run_name") with
  | error e => rfl
  | ok out =>
  simp only []
  generalize (if c3' "data_path" ≠ .str [] then c3' "data_path" else
    PyVal.str (env.dataDir ++ ['/'])) = data
  generalize (if c3' "figs_path" ≠ .str [] then c3' "figs_path" else
    PyVal.str (absPath env.cwd (pathJoin (pathJoin (pathJoin out "..".toList) "..".toList)
      "figures".toList) ++ ['/'])) = figs
  obtain ⟨pa, hpa⟩ : ∃ t : CfgVals → CfgVals, t = fun c => setAttr (setAttr (setAttr c "data_path"
    data) "out_path" (.str out)) "figs_path" figs := ⟨_, rfl⟩
  have e4 : ∀ c, setAttr (setAttr (setAttr c "data_path" data) "out_path" (.str out))
    "figs_path" figs = pa c := by intro c; rw [hpa]
  rw [e4, e4]
  have pa1 : ∀ c f, f ≠ "data_path" → f ≠ "out_path" → f ≠ "figs_path" → pa c f = c f := by
    intro c f a b d
    rw [hpa]
    simp only []
    rw [setAttr_ne _ _ d, setAttr_ne _ _ b, setAttr_ne _ _ a]
  have pa2 : ∀ f, c3 f = c3' f → pa c3 f = pa c3' f := by
    intro f h
    rw [hpa]
    simp only [setAttr, h]
  have pd1 : ∀ c, pa c "data_path" = data := by
    intro c; rw [hpa]; simp [setAttr]
  have po1 : ∀ c, pa c "out_path" = .str out := by
    intro c; rw [hpa]; simp [setAttr]
  rw [pd1, pd1, po1, po1]
  simp only [strVal]
  rw [makeAbsolute_eq, makeAbsolute_eq]
  rcases mapFields_rel (fun d => absField env data out d.name)
    (fun d v v' => enforceOne env d v = enforceOne env d v') cfgFields cfgNames_nodup
    (pa c3) (pa c3') (by
      intro d hd
      by_cases hpl' : isPlain d.name = true
      · obtain ⟨-, -, -, a4, a5, a6⟩ := isPlain_ne hpl'
        right
        rw [absField_plain _ _ _ _ hpl', absField_plain _ _ _ _ hpl']
        refine ⟨_, _, rfl, rfl, ?_⟩
        rw [pa1 _ _ a4 a5 a6, pa1 _ _ a4 a5 a6]
        exact plain d hd hpl'
      · have := pa2 d.name (same d.name (hnp d.name (by simpa using hpl')))
        rw [this]
        cases absField env data out d.name (pa c3' d.name) with
        | error e => exact .inl ⟨e, rfl, rfl⟩
        | ok v => exact .inr ⟨v, v, rfl, rfl, rfl⟩) with ⟨e, a, b⟩ | ⟨u, u', a, b, hu, hf⟩
  · rw [a, b]
  · rw [a, b]
    simp only []
    rw [enforceTypes_eq, enforceTypes_eq]
    rcases mapFields_rel (enforceOne env) (fun _ v v' => v = v') cfgFields cfgNames_nodup u u' (by
      intro d hd
      rw [hu d hd]
      cases enforceOne env d (u' d.name) with
      | error e => exact .inl ⟨e, rfl, rfl⟩
      | ok v => exact .inr ⟨v, v, rfl, rfl, rfl⟩) with ⟨e, a, b⟩ | ⟨w, w', a, b, hw, hf'⟩
    · rw [a, b]
    · rw [a, b]
      congr 1
      funext f
      by_cases hfm : f ∈ cfgFields.map (·.name)
      · obtain ⟨d, hd, rfl⟩ := List.mem_map.1 hfm
        exact hw d hd
      · rw [(hf' f hfm).1, (hf' f hfm).2, (hf f hfm).1, (hf f hfm).2]
        exact pa2 f (same f (hout f hfm))

end MoonPIES
