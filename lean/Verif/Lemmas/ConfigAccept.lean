import Verif.Lemmas.Config

/-!
# When the construction of a configuration succeeds
-/

namespace MoonPIES

theorem nonplain_str : ∀ d ∈ cfgFields, isPlain d.name = false → d.name ≠ "seed" →
    d.type = .str := by decide +kernel

theorem enforceOne_str (env : Env) (d : FieldDecl) (v : PyVal) (h : d.type = .str) :
    ∃ w, enforceOne env d v = .ok w := by
  unfold enforceOne castTo
  rw [h]
  split
  · exact ⟨_, rfl⟩
  · exact ⟨_, rfl⟩

theorem absField_accepts (env : Env) (dp out : Str) (f : String) (v : PyVal) :
    ∃ w, absField env (.str dp) out f v = .ok w := by
  unfold absField
  cases v with
  | str s =>
    simp only []
    split
    · exact ⟨_, rfl⟩
    · split
      · exact ⟨_, rfl⟩
      · split
        · exact ⟨_, rfl⟩
        · exact ⟨_, rfl⟩
  | _ => exact ⟨_, rfl⟩

theorem absField_int (env : Env) (data : PyVal) (out : Str) (f : String) (n : Int) :
    absField env data out f (.int n) = .ok (.int n) := rfl

theorem decl_seed_int : ∀ d ∈ cfgFields, d.name = "seed" → d.type = .int := by decide +kernel

/-- Construction succeeds if the seed converts, the mode and pole are known, the three strings it
computes with are strings, and each plain field has a convertible value. -/
theorem makeCfg_accepts {env : Env} {kw : List (String × PyVal)} {c0 : CfgVals} {n : Int}
    {md pd : List (String × PyVal)} {so sr sd : Str} (h0 : initFields kw = .ok c0)
    (hs : getRandomSeed env (c0 "seed") = .ok n)
    (hmd : dictGet modeDict (c0 "mode") = .ok md) (hpd : dictGet poleDict (c0 "pole") = .ok pd)
    (ho : c0 "out_path" = .str so) (hr : c0 "run_name" = .str sr) (hd : c0 "data_path" = .str sd)
    (hpl : ∀ d ∈ cfgFields, isPlain d.name = true →
      ∃ w, enforceOne env d (fillNone (fillNone c0 md) pd d.name) = .ok w) :
    ∃ c, makeCfg env kw = .ok c := by
  obtain ⟨sm, hsm, hsm'⟩ := dictGet_ok hmd
  have hav := tables_avoid (sm, md) (List.mem_append_left _ hsm')
  obtain ⟨sp, hsp, hsp'⟩ := dictGet_ok hpd
  have hav' := tables_avoid (sp, pd) (List.mem_append_right _ hsp')
  obtain ⟨c1, hc1⟩ : ∃ t, t = setAttr (setAttr (setAttr c0 "seed" (.int n)) "run_date"
    (.str env.date)) "run_time" (.str env.time) := ⟨_, rfl⟩
  have h1 : setSeedTime env c0 = .ok c1 := by unfold setSeedTime; rw [hs, hc1]
  have hc1r : ∀ f, f ≠ "seed" → f ≠ "run_date" → f ≠ "run_time" → c1 f = c0 f := by
    intro f a b d
    rw [hc1, setAttr_ne _ _ d, setAttr_ne _ _ b, setAttr_ne _ _ a]
  have h2 : setModeDefaults c1 = .ok (fillNone c1 md) := by
    unfold setModeDefaults
    rw [hc1r _ (by decide) (by decide) (by decide)]
    unfold modeDict at hmd
    rw [hmd]
  have h3 : setPoleDefaults (fillNone c1 md) = .ok (fillNone (fillNone c1 md) pd) := by
    unfold setPoleDefaults
    rw [fillNone_not_mem _ _ _ (hav _ (by simp)), hc1r _ (by decide) (by decide) (by decide)]
    unfold poleDict at hpd
    rw [hpd]
  obtain ⟨c3, hc3⟩ : ∃ t, t = fillNone (fillNone c1 md) pd := ⟨_, rfl⟩
  have hc3a : ∀ f ∈ ["seed", "run_date", "run_time", "mode", "pole",
    "run_name", "data_path", "out_path", "figs_path"], c3 f = c1 f := by
    intro f hf
    rw [hc3, fillNone_not_mem _ _ _ (hav' f hf), fillNone_not_mem _ _ _ (hav f hf)]
  have es : c3 "seed" = .int n := by
    rw [hc3a _ (by simp), hc1, setAttr_ne _ _ (by decide), setAttr_ne _ _ (by decide), setAttr_same]
  have eo : c3 "out_path" = .str so := by
    rw [hc3a _ (by simp), hc1r _ (by decide) (by decide) (by decide), ho]
  have er : c3 "run_name" = .str sr := by
    rw [hc3a _ (by simp), hc1r _ (by decide) (by decide) (by decide), hr]
  have ed : c3 "data_path" = .str sd := by
    rw [hc3a _ (by simp), hc1r _ (by decide) (by decide) (by decide), hd]
  obtain ⟨c4, hc4⟩ : ∃ t, setPathDefaults env (intVal (c3 "seed")) c3 = .ok t := by
    unfold setPathDefaults
    rw [es, eo, er]
    exact ⟨_, rfl⟩
  have hc4' := hc4
  unfold setPathDefaults at hc4
  rw [es, eo, er, ed] at hc4
  simp only [intVal, getOutPath, Except.ok.injEq] at hc4
  have k1 : c4 "out_path" = .str (outPathStr env so (fmtSeed n) sr) := by
    rw [← hc4, setAttr_ne _ _ (by decide), setAttr_same]
  obtain ⟨dp, k2⟩ : ∃ dp, c4 "data_path" = .str dp := by
    rw [← hc4, setAttr_ne _ _ (by decide), setAttr_ne _ _ (by decide), setAttr_same]
    split
    · exact ⟨_, rfl⟩
    · exact ⟨_, rfl⟩
  have hrest : ∀ f, f ≠ "data_path" → f ≠ "out_path" → f ≠ "figs_path" → c4 f = c3 f := by
    intro f a b d
    rw [← hc4, setAttr_ne _ _ d, setAttr_ne _ _ b, setAttr_ne _ _ a]
  obtain ⟨c5, h5⟩ := mapFields_ok (fun d => absField env (c4 "data_path")
      (outPathStr env so (fmtSeed n) sr) d.name) cfgFields cfgNames_nodup c4
    (fun d _ => by rw [k2]; exact absField_accepts _ _ _ _ _)
  have h5' := (mapFields_spec _ _ cfgNames_nodup _ _ h5).1
  obtain ⟨c6, h6⟩ := mapFields_ok (enforceOne env) cfgFields cfgNames_nodup c5 (by
    intro d hmem
    have e := h5' d hmem
    by_cases hp : isPlain d.name = true
    · obtain ⟨a1, a2, a3, a4, a5, a6⟩ := isPlain_ne hp
      rw [absField_plain _ _ _ _ hp, Except.ok.injEq] at e
      rw [← e, hrest _ a4 a5 a6, hc3, fill_congr _ _ _ _ (fill_congr _ _ _ _ (hc1r _ a1 a2 a3))]
      exact hpl d hmem hp
    · by_cases hs' : d.name = "seed"
      · rw [hs', hrest "seed" (by decide) (by decide) (by decide), es, absField_int,
          Except.ok.injEq] at e
        rw [hs', ← e]
        unfold enforceOne
        rw [decl_seed_int d hmem hs']
        exact ⟨_, rfl⟩
      · exact enforceOne_str env d _ (nonplain_str d hmem (by simpa using hp) hs'))
  refine ⟨c6, ?_⟩
  unfold makeCfg
  simp only [bind, Except.bind]
  rw [h0]; simp only []
  rw [h1]; simp only []
  rw [h2]; simp only []
  rw [h3]; simp only []
  rw [← hc3, hc4']; simp only []
  rw [k1]
  simp only [strVal]
  rw [makeAbsolute_eq, h5]; simp only []
  rw [enforceTypes_eq]
  exact h6

end MoonPIES
