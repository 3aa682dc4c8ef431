import Verif.Props.Config

/-!
# C56, C58: rebuilding a configuration from its values, and the comet configuration
-/

namespace MoonPIES

open Spec

/-- A full set of values as it comes out of a construction. -/
structure Valid (c : CfgVals) : Prop where
  types : ∀ d ∈ cfgFields, HasType d.type (c d.name)
  seed : ∃ n, c "seed" = .int n ∧ n ≠ 0
  mode : ∃ s md, c "mode" = .str s ∧ dictGet modeDict (.str s) = .ok md
  pole : ∃ s pd, c "pole" = .str s ∧ dictGet poleDict (.str s) = .ok pd

theorem valid_of_makeCfg {env : Env} {kw : List (String × PyVal)} {c : CfgVals}
    (h : makeCfg env kw = .ok c) (hdraw : 1 ≤ env.draw ∧ env.draw ≤ 99998) : Valid c := by
  obtain ⟨c0, c4, c5, n, md, pd, out, st⟩ := makeCfg_steps h
  obtain ⟨m, h1, h2, -⟩ := C55_nonzero env kw c h hdraw
  obtain ⟨s, e1, e2, -⟩ := st.mode_eq
  obtain ⟨s', f1, f2, -⟩ := st.pole_eq
  exact ⟨C54_types env kw c h, ⟨m, h1, h2⟩, ⟨s, md, e1, e2 ▸ st.mode⟩, ⟨s', pd, f1, f2 ▸ st.pole⟩⟩

theorem toDict_keys (c : CfgVals) : (toDict c).map (·.1) = cfgFields.map (·.name) := by
  unfold toDict; rw [List.map_map]; rfl

theorem toDict_nodup (c : CfgVals) : ((toDict c).map (·.1)).Nodup := by
  rw [toDict_keys]; exact cfgNames_nodup

theorem initFields_toDict (c : CfgVals) : ∃ c0, initFields (toDict c) = .ok c0 ∧
    ∀ d ∈ cfgFields, c0 d.name = c d.name := by
  have : ∃ c0, initFields (toDict c) = .ok c0 := by
    unfold initFields
    rw [if_pos]
    · exact ⟨_, rfl⟩
    · rw [List.all_eq_true]
      intro kv hkv
      obtain ⟨d, hd, rfl⟩ := List.mem_map.1 hkv
      rw [List.any_eq_true]
      exact ⟨d, hd, by simp⟩
  obtain ⟨c0, h0⟩ := this
  exact ⟨c0, h0, fun d hd => (initFields_ok h0).2.1 _ _ (toDict_nodup c)
    (List.mem_map.2 ⟨d, hd, rfl⟩)⟩

theorem hasType_ne_none {ty : PyType} {v : PyVal} (h : HasType ty v) : v ≠ .none := by
  rintro rfl; cases h

theorem hasType_str {v : PyVal} (h : HasType .str v) : ∃ s, v = .str s := by
  cases h; exact ⟨_, rfl⟩

/-- Without any missing value the mode and pole steps change nothing. -/
theorem fill_typed (d : List (String × PyVal)) (c : CfgVals) (f : String) (h : c f ≠ .none) :
    fillNone c d f = c f := fillNone_of_ne_none d c f h

theorem str_fields : ∀ f ∈ ["run_name", "data_path", "out_path", "figs_path", "run_date", "run_time"],
    ∃ d ∈ cfgFields, d.name = f ∧ d.type = .str := by decide +kernel

theorem setAttr_of_mem {c : CfgVals} {f k : String} {v : PyVal} :
    setAttr c k v f = if f = k then v else c f := rfl

/-- Building from a full set of values succeeds and keeps every field that is not
recomputed, and the seed. -/
theorem makeCfg_typed (env : Env) (c : CfgVals) (hv : Valid c) :
    ∃ c', makeCfg env (toDict c) = .ok c' ∧
      (∀ d ∈ cfgFields, ¬ Recomputed d.name → c' d.name = c d.name) ∧ c' "seed" = c "seed" := by
  obtain ⟨c0, h0, hc0⟩ := initFields_toDict c
  obtain ⟨n, hn, hn0⟩ := hv.seed
  obtain ⟨sm, md, hm, hmd⟩ := hv.mode
  obtain ⟨sp, pd, hp, hpd⟩ := hv.pole
  have hstr : ∀ f ∈ ["run_name", "data_path", "out_path", "figs_path", "run_date", "run_time"],
      ∃ s, c0 f = .str s := by
    intro f hf
    obtain ⟨d, hd, rfl, ht⟩ := str_fields f hf
    rw [hc0 d hd]
    exact hasType_str (ht ▸ hv.types d hd)
  have es : c0 "seed" = .int n := by
    obtain ⟨d, hd, h1, -⟩ := decl_seed
    rw [← hn, ← h1]; exact hc0 d hd
  have em : c0 "mode" = .str sm := by
    obtain ⟨d, hd, h1, -⟩ := decl_mode
    rw [← hm, ← h1]; exact hc0 d hd
  have ep : c0 "pole" = .str sp := by
    obtain ⟨d, hd, h1, -⟩ := decl_pole
    rw [← hp, ← h1]; exact hc0 d hd
  obtain ⟨so, eo⟩ := hstr "out_path" (by simp)
  obtain ⟨sr, er⟩ := hstr "run_name" (by simp)
  obtain ⟨sd, ed⟩ := hstr "data_path" (by simp)
  obtain ⟨sf, ef⟩ := hstr "figs_path" (by simp)
  have hex : ∃ c', makeCfg env (toDict c) = .ok c' := by
    obtain ⟨c1, hc1⟩ : ∃ t, t = setAttr (setAttr (setAttr c0 "seed" (.int n)) "run_date"
      (.str env.date)) "run_time" (.str env.time) := ⟨_, rfl⟩
    have h1 : setSeedTime env c0 = .ok c1 := by
      unfold setSeedTime
      rw [es]
      have : getRandomSeed env (.int n) = .ok n := by
        unfold getRandomSeed pyIntOf
        simp [hn0]
      rw [this, hc1]
    have hc1r : ∀ f, f ≠ "seed" → f ≠ "run_date" → f ≠ "run_time" → c1 f = c0 f := by
      intro f a b d
      rw [hc1, setAttr_ne _ _ d, setAttr_ne _ _ b, setAttr_ne _ _ a]
    have hc1t : ∀ d ∈ cfgFields, HasType d.type (c1 d.name) := by
      intro d hd
      rw [hc1]
      have hty : ∀ d' ∈ cfgFields, d'.name = d.name → d' = d := fun d' hd' e =>
        List.inj_on_of_nodup_map cfgNames_nodup hd' hd e
      by_cases e1 : d.name = "run_time"
      · obtain ⟨d', hd', g1, g2⟩ := str_fields "run_time" (by simp)
        rw [e1, setAttr_same, ← hty d' hd' (g1.trans e1.symm), g2]; constructor
      · rw [setAttr_ne _ _ e1]
        by_cases e2 : d.name = "run_date"
        · obtain ⟨d', hd', g1, g2⟩ := str_fields "run_date" (by simp)
          rw [e2, setAttr_same, ← hty d' hd' (g1.trans e2.symm), g2]; constructor
        · rw [setAttr_ne _ _ e2]
          by_cases e3 : d.name = "seed"
          · obtain ⟨d', hd', g1, g2, -⟩ := decl_seed
            rw [e3, setAttr_same, ← hty d' hd' (g1.trans e3.symm), g2]; constructor
          · rw [setAttr_ne _ _ e3, hc0 d hd]; exact hv.types d hd
    have h2 : setModeDefaults c1 = .ok (fillNone c1 md) := by
      unfold setModeDefaults
      rw [hc1r _ (by decide) (by decide) (by decide), em]
      unfold modeDict at hmd
      rw [hmd]
    have h2f : ∀ d ∈ cfgFields, fillNone c1 md d.name = c1 d.name := fun d hd =>
      fillNone_of_ne_none _ _ _ (hasType_ne_none (hc1t d hd))
    have h2p : fillNone c1 md "pole" = .str sp := by
      obtain ⟨d, hd, g1, -⟩ := decl_pole
      have := h2f d hd
      rw [g1] at this
      rw [this, hc1r _ (by decide) (by decide) (by decide), ep]
    have h3 : setPoleDefaults (fillNone c1 md) = .ok (fillNone (fillNone c1 md) pd) := by
      unfold setPoleDefaults
      rw [h2p]
      unfold poleDict at hpd
      rw [hpd]
    obtain ⟨c3, hc3⟩ : ∃ t, t = fillNone (fillNone c1 md) pd := ⟨_, rfl⟩
    have h3f : ∀ d ∈ cfgFields, c3 d.name = c1 d.name := by
      intro d hd
      rw [hc3, fillNone_of_ne_none _ _ _ (by rw [h2f d hd]; exact hasType_ne_none (hc1t d hd)), h2f d hd]
    have g : ∀ f ∈ ["run_name", "data_path", "out_path", "figs_path"], c3 f = c0 f := by
      intro f hf
      obtain ⟨d, hd, g1, -⟩ := str_fields f (by
        rw [List.mem_cons, List.mem_cons, List.mem_cons, List.mem_cons] at hf
        rcases hf with h | h | h | h | h
        · subst h; exact List.mem_cons_self
        · subst h; exact List.mem_cons_of_mem _ List.mem_cons_self
        · subst h; exact List.mem_cons_of_mem _ (List.mem_cons_of_mem _ List.mem_cons_self)
        · subst h
          exact List.mem_cons_of_mem _ (List.mem_cons_of_mem _ (List.mem_cons_of_mem _ List.mem_cons_self))
        · cases h)
      have := h3f d hd
      rw [g1] at this
      rw [this]
      simp only [List.mem_cons, List.not_mem_nil, or_false] at hf
      rcases hf with rfl | rfl | rfl | rfl <;> exact hc1r _ (by decide) (by decide) (by decide)
    have gs : c3 "seed" = .int n := by
      obtain ⟨d, hd, g1, -⟩ := decl_seed
      have := h3f d hd
      rw [g1] at this
      rw [this, hc1, setAttr_ne _ _ (by decide), setAttr_ne _ _ (by decide), setAttr_same]
    obtain ⟨c4, h4, h4o, h4d, h4t⟩ : ∃ t, setPathDefaults env (intVal (c3 "seed")) c3 = .ok t ∧
        (∃ o, t "out_path" = .str o) ∧ (∃ o, t "data_path" = .str o) ∧
        ∀ d ∈ cfgFields, HasType d.type (t d.name) := by
      have gout : getOutPath env (c3 "out_path") (intVal (c3 "seed")) (c3 "run_name") =
          .ok (outPathStr env so (fmtSeed n) sr) := by
        rw [g "out_path" (by simp), g "run_name" (by simp), gs, eo, er]; rfl
      unfold setPathDefaults
      rw [gout]
      simp only []
      refine ⟨_, rfl, ⟨outPathStr env so (fmtSeed n) sr, ?_⟩, ?_, ?_⟩
      · rw [setAttr_ne _ _ (by decide), setAttr_same]
      · rw [setAttr_ne _ _ (by decide), setAttr_ne _ _ (by decide), setAttr_same, g _ (by simp), ed]
        split
        · exact ⟨_, rfl⟩
        · exact ⟨_, rfl⟩
      · intro d hd
        have hty : ∀ d' ∈ cfgFields, d'.name = d.name → d' = d := fun d' hd' e =>
          List.inj_on_of_nodup_map cfgNames_nodup hd' hd e
        by_cases e1 : d.name = "figs_path"
        · obtain ⟨d', hd', g1, g2⟩ := str_fields "figs_path" (by simp)
          rw [e1, setAttr_same, ← hty d' hd' (g1.trans e1.symm), g2, g _ (by simp), ef]
          split <;> constructor
        · rw [setAttr_ne _ _ e1]
          by_cases e2 : d.name = "out_path"
          · obtain ⟨d', hd', g1, g2⟩ := str_fields "out_path" (by simp)
            rw [e2, setAttr_same, ← hty d' hd' (g1.trans e2.symm), g2]; constructor
          · rw [setAttr_ne _ _ e2]
            by_cases e3 : d.name = "data_path"
            · obtain ⟨d', hd', g1, g2⟩ := str_fields "data_path" (by simp)
              rw [e3, setAttr_same, ← hty d' hd' (g1.trans e3.symm), g2, g _ (by simp), ed]
              split <;> constructor
            · rw [setAttr_ne _ _ e3, h3f d hd]; exact hc1t d hd
    obtain ⟨o, ho⟩ := h4o
    obtain ⟨dp, hdp⟩ := h4d
    have habs : ∀ (d : FieldDecl) v, HasType d.type v →
        ∃ w, absField env (c4 "data_path") o d.name v = .ok w ∧ HasType d.type w := by
      intro d v ht
      unfold absField
      rw [hdp]
      cases v with
      | str s =>
        have hs : d.type = .str := by
          generalize d.type = ty at ht
          cases ht; rfl
        rw [hs]
        simp only []
        split
        · exact ⟨_, rfl, .str _⟩
        · split
          · exact ⟨_, rfl, .str _⟩
          · split
            · exact ⟨_, rfl, .str _⟩
            · exact ⟨_, rfl, .str _⟩
      | _ => exact ⟨_, rfl, ht⟩
    obtain ⟨c5, h5⟩ := mapFields_ok (fun d => absField env (c4 "data_path") o d.name) cfgFields
      cfgNames_nodup c4 (fun d hd => (habs d _ (h4t d hd)).imp (fun _ h => h.1))
    obtain ⟨c6, h6⟩ := mapFields_ok (enforceOne env) cfgFields cfgNames_nodup c5 (by
      intro d hd
      have e := (mapFields_spec _ _ cfgNames_nodup _ _ h5).1 d hd
      obtain ⟨w, hw, ht⟩ := habs d _ (h4t d hd)
      rw [hw, Except.ok.injEq] at e
      rw [← e]
      exact ⟨w, enforceOne_id ht⟩)
    refine ⟨c6, ?_⟩
    unfold makeCfg
    simp only [bind, Except.bind]
    rw [h0]; simp only []
    rw [h1]; simp only []
    rw [h2]; simp only []
    rw [h3]; simp only []
    rw [← hc3, h4]; simp only []
    rw [ho]
    simp only [strVal]
    rw [makeAbsolute_eq, h5]; simp only []
    rw [enforceTypes_eq]
    exact h6
  obtain ⟨c', hc'⟩ := hex
  refine ⟨c', hc', ?_, ?_⟩
  · intro d hd hr
    exact C54_unchanged env (toDict c) c' hc' (toDict_nodup c) d hd hr _
      (List.mem_map.2 ⟨d, hd, rfl⟩) (hv.types d hd)
  · rw [hn]
    refine C55_kept env _ c' hc' (toDict_nodup c) (.int n) ?_ n (.int n) hn0
    obtain ⟨d, hd, h1, -⟩ := decl_seed
    exact List.mem_map.2 ⟨d, hd, by rw [h1, hn]⟩

/-- **C56** (partial) a configuration built again from its values, on any day and with any file
system, has the same seed and the same value in every field except the clock and the file
locations.  Missing: the file locations, see `C56_refuted`. -/
theorem C56_round_trip_partial (env env' : Env) (kw : List (String × PyVal)) (c : CfgVals)
    (h : makeCfg env kw = .ok c) (hdraw : 1 ≤ env.draw ∧ env.draw ≤ 99998) :
    ∃ c', fromDict env' (toDict c) = .ok c' ∧
      (∀ d ∈ cfgFields, ¬ Recomputed d.name → c' d.name = c d.name) ∧ c' "seed" = c "seed" :=
  makeCfg_typed env' c (valid_of_makeCfg h hdraw)

/-- The same world after the output directory was made. -/
def env1 : Env := { env0 with
  pathExists := fun s => s == "/pkg/data/".toList ||
    s == "/home/u/out/240101/moonpies/00777/".toList }

/-- **C56** does not hold for the output path: once the run has made its directory, reading the
configuration back gives another `out_path` (with a slash at the end). -/
theorem C56_refuted :
    ∃ env env' c c', makeCfg env [] = .ok c ∧ fromDict env' (toDict c) = .ok c' ∧
      c' "out_path" ≠ c "out_path" := by
  have h : ((makeCfg env0 []).bind (fun c => (fromDict env1 (toDict c)).map
      (fun c' => (c "out_path", c' "out_path")))) =
        .ok (.str "/home/u/out/240101/moonpies/00777".toList,
          .str "/home/u/out/240101/moonpies/00777/".toList) := by decide +kernel
  cases h1 : makeCfg env0 [] with
  | error e => rw [h1] at h; cases h
  | ok c =>
    rw [h1] at h
    simp only [Except.bind] at h
    cases h2 : fromDict env1 (toDict c) with
    | error e => rw [h2] at h; cases h
    | ok c' =>
      rw [h2] at h
      refine ⟨env0, env1, c, c', h1, h2, ?_⟩
      simp only [Except.map, Except.ok.injEq, Prod.mk.injEq] at h
      rw [h.1, h.2]
      decide

end MoonPIES
