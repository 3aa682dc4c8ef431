import Verif.Lemmas.ConfigAccept
import Verif.Lemmas.CfgDecode
import Verif.Props.Files
import Verif.Props.Main
import Verif.Spec.CfgRun

/-!
# C79: from the options a user gives to the numbers a run computes with
-/

namespace MoonPIES

open Spec

/-! ## Helpers -/

theorem truncRat_int (n : Int) : truncRat (n : ℚ) = n := by
  unfold truncRat
  split <;> simp

theorem fits_enforce {env : Env} {d : FieldDecl} {v : PyVal} (h : Fits d.type v) :
    ∃ w, enforceOne env d v = .ok w ∧ SameValue w v := by
  obtain ⟨nm, ty, df⟩ := d
  simp only [] at h
  cases h with
  | has h => exact ⟨v, enforceOne_id h, .refl v⟩
  | whole n =>
    refine ⟨.int n, ?_, .whole n⟩
    unfold enforceOne castTo pyIntOf
    rw [if_neg (by simp [isInstance])]
    simp only [truncRat_int]
    rfl
  | float n hn =>
    refine ⟨.float n, ?_, .float n⟩
    unfold enforceOne castTo
    rw [if_neg (by simp [isInstance])]
    simp only [pyFloat_int]
    rw [if_pos hn]

theorem fits_none {ty : PyType} : ¬ Fits ty .none := by
  intro h
  cases h with
  | has h => cases h

/-- Boolean form of `Fits`. -/
def fitsB (ty : PyType) (v : PyVal) : Bool :=
  isInstance ty v || (match ty, v with
    | .int, .float q => decide (q.den = 1)
    | .float, .int n => decide (n.natAbs < 2 ^ 1024)
    | _, _ => false)

theorem fits_of_fitsB {ty : PyType} {v : PyVal} (h : fitsB ty v = true) : Fits ty v := by
  unfold fitsB at h
  rw [Bool.or_eq_true] at h
  rcases h with h | h
  · exact .has ((isInstance_iff _ _).1 h)
  · split at h
    · rename_i q
      have hq : (q.num : ℚ) = q := (Rat.den_eq_one_iff q).1 (by simpa using h)
      rw [← hq]; exact .whole _
    · exact .float _ (of_decide_eq_true h)
    · cases h

/-- Every default fits its field, or is `None` for an option. -/
theorem defaults_fit : ∀ d ∈ cfgFields, fitsB d.type d.dflt = true ∨
    (d.dflt = .none ∧ d.name ∈ Spec.options.map (·.1)) := by decide +kernel

/-- Whatever the mode and the pole, an option left open gets a value that fits. -/
theorem filled_fit : ∀ m ∈ modeDict, ∀ p ∈ poleDict, ∀ d ∈ cfgFields,
    d.name ∈ Spec.options.map (·.1) →
    fitsB d.type (fillNone (fillNone (fun _ => .none) m.2) p.2 d.name) = true := by decide +kernel

theorem fill_value {c0 : CfgVals} {md pd : List (String × PyVal)} {d : FieldDecl} {ms ps : Str}
    (hm : (ms, md) ∈ modeDict) (hp : (ps, pd) ∈ poleDict) (hd : d ∈ cfgFields)
    (hfit : Fits d.type (c0 d.name) ∨ (c0 d.name = .none ∧ d.name ∈ Spec.options.map (·.1))) :
    Fits d.type (fillNone (fillNone c0 md) pd d.name) := by
  by_cases hn : c0 d.name = .none
  · rcases hfit with h | ⟨-, ho⟩
    · rw [hn] at h; exact absurd h fits_none
    · rw [fill_congr pd _ _ d.name (fill_congr md c0 (fun _ => .none) d.name hn)]
      exact fits_of_fitsB (filled_fit _ hm _ hp d hd ho)
  · rw [fillNone_of_ne_none _ _ _ (by rw [fillNone_of_ne_none _ _ _ hn]; exact hn),
      fillNone_of_ne_none _ _ _ hn]
    rcases hfit with h | ⟨h, -⟩
    · exact h
    · exact absurd h hn

theorem initFields_accepts {kw : List (String × PyVal)}
    (hk : ∀ kv ∈ kw, ∃ d ∈ cfgFields, d.name = kv.1) : ∃ c0, initFields kw = .ok c0 := by
  unfold initFields
  rw [if_pos]
  · exact ⟨_, rfl⟩
  · rw [List.all_eq_true]
    intro kv hkv
    obtain ⟨d, hd, h⟩ := hk kv hkv
    rw [List.any_eq_true]
    exact ⟨d, hd, by simpa using h⟩

theorem decl_unique {d d' : FieldDecl} (hd : d ∈ cfgFields) (hd' : d' ∈ cfgFields)
    (h : d.name = d'.name) : d = d' := List.inj_on_of_nodup_map cfgNames_nodup hd hd' h

theorem Spec.GoodArgs.value {kw : List (String × PyVal)} (hg : GoodArgs kw) {c0 : CfgVals}
    (h0 : initFields kw = .ok c0) {d : FieldDecl} (hd : d ∈ cfgFields) :
    Fits d.type (c0 d.name) ∨ (c0 d.name = .none ∧ d.name ∈ Spec.options.map (·.1)) := by
  by_cases hk : d.name ∈ kw.map (·.1)
  · obtain ⟨kv, hkv, e⟩ := List.mem_map.1 hk
    obtain ⟨d', hd', e', h⟩ := hg.fits kv hkv
    have : d' = d := decl_unique hd' hd (e'.trans e)
    subst this
    have hv : c0 d'.name = kv.2 := (initFields_ok h0).2.1 _ _ hg.nodup (by rw [e']; exact hkv)
    rw [hv, e']
    exact h
  · rw [(initFields_ok h0).2.2 d hd hk]
    rcases defaults_fit d hd with h | h
    · exact .inl (fits_of_fitsB h)
    · exact .inr h

theorem dflt_names : ∀ d ∈ cfgFields,
    (d.name = "mode" → d.dflt = .str "moonpies".toList) ∧
    (d.name = "pole" → d.dflt = .str "s".toList) ∧
    (d.name ∈ ["out_path", "run_name", "data_path"] → d.type = .str ∧
      d.name ∉ Spec.options.map (·.1)) ∧
    (d.name = "seed" → d.type = .int ∧ d.name ∉ Spec.options.map (·.1)) := by decide +kernel

theorem names_declared : ∀ f ∈ ["mode", "pole", "out_path", "run_name", "data_path", "seed"],
    ∃ d ∈ cfgFields, d.name = f := by decide +kernel

theorem Spec.GoodArgs.string {kw : List (String × PyVal)} (hg : GoodArgs kw) {c0 : CfgVals}
    (h0 : initFields kw = .ok c0) {f : String} (hf : f ∈ ["out_path", "run_name", "data_path"]) :
    ∃ s, c0 f = .str s := by
  obtain ⟨d, hd, e⟩ := names_declared f (by
    simp only [List.mem_cons, List.not_mem_nil, or_false] at hf ⊢; tauto)
  have h := dflt_names d hd
  obtain ⟨ht, ho⟩ := h.2.2.1 (by rw [e]; exact hf)
  rcases hg.value h0 hd with h | ⟨-, h⟩
  · rw [ht, e] at h
    generalize c0 f = v at h
    cases h with
    | has h => exact hasType_str h
  · exact absurd h ho

theorem Spec.GoodArgs.modeOf {kw : List (String × PyVal)} (hg : GoodArgs kw) {c0 : CfgVals}
    (h0 : initFields kw = .ok c0) :
    c0 "mode" = .str "cannon".toList ∨ c0 "mode" = .str "moonpies".toList := by
  by_cases hk : "mode" ∈ kw.map (·.1)
  · obtain ⟨⟨k, v⟩, hkv, e⟩ := List.mem_map.1 hk
    simp only [] at e
    subst e
    rw [(initFields_ok h0).2.1 _ _ hg.nodup hkv]
    exact hg.mode v hkv
  · obtain ⟨d, hd, e⟩ := names_declared "mode" (by simp)
    have := (initFields_ok h0).2.2 d hd (by rw [e]; exact hk)
    rw [e, (dflt_names d hd).1 e] at this
    exact .inr this

theorem Spec.GoodArgs.poleOf {kw : List (String × PyVal)} (hg : GoodArgs kw) {c0 : CfgVals}
    (h0 : initFields kw = .ok c0) :
    c0 "pole" = .str "s".toList ∨ c0 "pole" = .str "n".toList := by
  by_cases hk : "pole" ∈ kw.map (·.1)
  · obtain ⟨⟨k, v⟩, hkv, e⟩ := List.mem_map.1 hk
    simp only [] at e
    subst e
    rw [(initFields_ok h0).2.1 _ _ hg.nodup hkv]
    exact hg.pole v hkv
  · obtain ⟨d, hd, e⟩ := names_declared "pole" (by simp)
    have := (initFields_ok h0).2.2 d hd (by rw [e]; exact hk)
    rw [e, (dflt_names d hd).2.1 e] at this
    exact .inl this

theorem Spec.GoodArgs.seedOf {kw : List (String × PyVal)} (hg : GoodArgs kw) {c0 : CfgVals}
    (h0 : initFields kw = .ok c0) (env : Env) : ∃ n, getRandomSeed env (c0 "seed") = .ok n := by
  obtain ⟨d, hd, e⟩ := names_declared "seed" (by simp)
  obtain ⟨ht, ho⟩ := (dflt_names d hd).2.2.2 e
  rcases hg.value h0 hd with h | ⟨-, h⟩
  · rw [ht, e] at h
    unfold getRandomSeed
    generalize c0 "seed" = v at h
    cases h with
    | has h => cases h <;> exact ⟨_, rfl⟩
    | whole n => exact ⟨_, rfl⟩
  · exact absurd h ho

theorem mode_get (v : PyVal) (h : v = .str "cannon".toList ∨ v = .str "moonpies".toList) :
    ∃ ms md, (ms, md) ∈ modeDict ∧ dictGet modeDict v = .ok md := by
  rcases h with rfl | rfl
  · exact ⟨"cannon".toList, modeCannon, by simp [modeDict], rfl⟩
  · exact ⟨"moonpies".toList, modeMoonpies, by simp [modeDict], rfl⟩

theorem pole_get (v : PyVal) (h : v = .str "s".toList ∨ v = .str "n".toList) :
    ∃ ms md, (ms, md) ∈ poleDict ∧ dictGet poleDict v = .ok md := by
  rcases h with rfl | rfl
  · exact ⟨"s".toList, poleSouth, by simp [poleDict], rfl⟩
  · exact ⟨"n".toList, poleNorth, by simp [poleDict], rfl⟩

/-- **C79** sensible arguments are accepted in every environment, and each field that is not
recomputed holds the given value, or its default if it was not given. -/
theorem C79_accepted (env : Env) (kw : List (String × PyVal)) (hg : GoodArgs kw) :
    ∃ c, makeCfg env kw = .ok c ∧ ∀ d ∈ cfgFields, ¬ Recomputed d.name →
      HasType d.type (c d.name) ∧
      (∀ v, (d.name, v) ∈ kw → v ≠ .none → SameValue (c d.name) v) ∧
      (d.name ∉ kw.map (·.1) → d.dflt ≠ .none → SameValue (c d.name) d.dflt) := by
  obtain ⟨c0, h0⟩ := initFields_accepts (kw := kw) (fun kv hkv => by
    obtain ⟨d, hd, h, -⟩ := hg.fits kv hkv
    exact ⟨d, hd, h⟩)
  obtain ⟨n, hs⟩ := hg.seedOf h0 env
  obtain ⟨ms, md, hm, hmd⟩ := mode_get _ (hg.modeOf h0)
  obtain ⟨ps, pd, hp, hpd⟩ := pole_get _ (hg.poleOf h0)
  obtain ⟨so, ho⟩ := hg.string h0 (f := "out_path") (by simp)
  obtain ⟨sr, hr⟩ := hg.string h0 (f := "run_name") (by simp)
  obtain ⟨sd, hd⟩ := hg.string h0 (f := "data_path") (by simp)
  have hfit : ∀ d ∈ cfgFields, Fits d.type (fillNone (fillNone c0 md) pd d.name) :=
    fun d hd => fill_value hm hp hd (hg.value h0 hd)
  obtain ⟨c, hc⟩ := makeCfg_accepts h0 hs hmd hpd ho hr hd (fun d hd _ => by
    obtain ⟨w, hw, -⟩ := fits_enforce (env := env) (hfit d hd)
    exact ⟨w, hw⟩)
  refine ⟨c, hc, fun d hd hrec => ⟨C54_types env kw c hc d hd, ?_, ?_⟩⟩
  · intro v hv hne
    have h1 := given_field hc hg.nodup hd hrec hv hne
    obtain ⟨d', hd', e', h⟩ := hg.fits _ hv
    have := decl_unique hd' hd e'
    subst this
    rcases h with h | ⟨h, -⟩
    · obtain ⟨w, hw, hsame⟩ := fits_enforce (env := env) h
      rw [hw, Except.ok.injEq] at h1
      rw [← h1]; exact hsame
    · exact absurd h hne
  · intro hk hne
    obtain ⟨c0', c4, c5, n', md', pd', out, st⟩ := makeCfg_steps hc
    have h1 := st.plain hd ((isPlain_iff _).2 hrec)
    have h2 := (initFields_ok st.init).2.2 d hd hk
    have e1 : fillNone c0' md' d.name = d.dflt := by
      rw [fillNone_of_ne_none _ _ _ (by rw [h2]; exact hne), h2]
    rw [fillNone_of_ne_none _ _ _ (by rw [e1]; exact hne), e1] at h1
    rcases defaults_fit d hd with h | ⟨h, -⟩
    · obtain ⟨w, hw, hsame⟩ := fits_enforce (env := env) (fits_of_fitsB h)
      rw [hw, Except.ok.injEq] at h1
      rw [← h1]; exact hsame
    · exact absurd h hne

theorem runFields_plain : ∀ f ∈ runFields, ∃ d ∈ cfgFields, d.name = f ∧ isPlain d.name = true := by
  decide +kernel

/-- Spec: the number a Python value stands for in arithmetic. -/
inductive Spec.Worth : PyVal → ℝ → Prop
  | float (q : ℚ) : Worth (.float q) q
  | int (n : Int) : Worth (.int n) n
  | yes : Worth (.bool true) 1
  | no : Worth (.bool false) 0

theorem worth_of {v : PyVal} {x : ℝ} (h : asNum v = some x) : Spec.Worth v x := by
  unfold asNum at h
  split at h
  · injection h with h; subst h; exact .float _
  · injection h with h; subst h; exact .int _
  · rename_i b
    injection h with h
    subst h
    cases b
    · exact .no
    · exact .yes
  · cases h

/-- **C79** every number of a run is the number of its field; `True` in an integer field counts
as 1. -/
theorem C79_numbers (c : CfgVals) (r : RunCfg) (h : RunCfg.ofVals c = some r) :
    ∀ p ∈ [
      ("timestart", r.timestart),
      ("timeend", r.timeend),
      ("timestep", r.timestep),
      ("ballistic_hop_effcy", r.ballistic_hop_effcy),
      ("volc_dep_effcy", r.volc_dep_effcy),
      ("coldtrap_area_H2O", r.coldtrap_area_H2O),
      ("coldtrap_area_CO2", r.coldtrap_area_CO2),
      ("ice_density", r.ice_density),
      ("simple2complex", r.simple2complex),
      ("complex2peakring", r.complex2peakring),
      ("rad_moon", r.rad_moon),
      ("grav_moon", r.grav_moon),
      ("sa_moon", r.sa_moon),
      ("impact_angle", r.impact_angle),
      ("target_density", r.target_density),
      ("impactor_density", r.impactor_density),
      ("ej_thickness_exp", r.ej_thickness_exp),
      ("ej_threshold", r.ej_threshold),
      ("basin_ej_threshold", r.basin_ej_threshold),
      ("thickness_min", r.thickness_min),
      ("ice_erosion_rate", r.ice_erosion_rate),
      ("mm_mass_rate", r.mm_mass_rate),
      ("ctype_frac", r.ctype_frac),
      ("ctype_hydrated", r.ctype_hydrated),
      ("hydrated_wt_pct", r.hydrated_wt_pct),
      ("impact_mass_retained", r.impact_mass_retained),
      ("brown_c0", r.brown_c0),
      ("brown_d0", r.brown_d0),
      ("earth_moon_ratio", r.earth_moon_ratio),
      ("impact_speed_mean", r.impact_speed_mean),
      ("impact_speed_sd", r.impact_speed_sd),
      ("escape_vel", r.escape_vel),
      ("comet_ast_frac", r.comet_ast_frac),
      ("comet_density", r.comet_density),
      ("comet_hydrated_wt_pct", r.comet_hydrated_wt_pct),
      ("comet_mass_retained", r.comet_mass_retained),
      ("comet_speed_min", r.comet_speed_min),
      ("comet_speed_max", r.comet_speed_max),
      ("jfc_speed_mean", r.jfc_speed_mean),
      ("jfc_speed_sd", r.jfc_speed_sd),
      ("jfc_frac", r.jfc_frac),
      ("lpc_speed_mean", r.lpc_speed_mean),
      ("lpc_speed_sd", r.lpc_speed_sd),
      ("lpc_frac", r.lpc_frac),
      ("volc_early_pct", r.volc_early_pct),
      ("volc_late_pct", r.volc_late_pct),
      ("volc_total_vol", r.volc_total_vol),
      ("volc_ice_ppm", r.volc_ice_ppm),
      ("volc_magma_density", r.volc_magma_density),
      ("ballistic_sed_frac_lost", r.ballistic_sed_frac_lost),
      ("mixing_ratio_a", r.mixing_ratio_a),
      ("mixing_ratio_b", r.mixing_ratio_b),
      ("polar_ejecta_temp_init", r.polar_ejecta_temp_init),
      ("basin_ejecta_temp_init_warm", r.basin_ejecta_temp_init_warm),
      ("basin_ejecta_temp_init_cold", r.basin_ejecta_temp_init_cold),
      ("overturn_depth_present", r.overturn_depth_present),
      ("overturn_ancient_slope", r.overturn_ancient_slope),
      ("overturn_ancient_t0", r.overturn_ancient_t0)],
    Spec.Worth (c p.1) p.2 := by
  have hr := reads_of h
  intro p hp
  fin_cases hp
  · exact worth_of hr.timestart
  · exact worth_of hr.timeend
  · exact worth_of hr.timestep
  · exact worth_of hr.ballistic_hop_effcy
  · exact worth_of hr.volc_dep_effcy
  · exact worth_of hr.coldtrap_area_H2O
  · exact worth_of hr.coldtrap_area_CO2
  · exact worth_of hr.ice_density
  · exact worth_of hr.simple2complex
  · exact worth_of hr.complex2peakring
  · exact worth_of hr.rad_moon
  · exact worth_of hr.grav_moon
  · exact worth_of hr.sa_moon
  · exact worth_of hr.impact_angle
  · exact worth_of hr.target_density
  · exact worth_of hr.impactor_density
  · exact worth_of hr.ej_thickness_exp
  · exact worth_of hr.ej_threshold
  · exact worth_of hr.basin_ej_threshold
  · exact worth_of hr.thickness_min
  · exact worth_of hr.ice_erosion_rate
  · exact worth_of hr.mm_mass_rate
  · exact worth_of hr.ctype_frac
  · exact worth_of hr.ctype_hydrated
  · exact worth_of hr.hydrated_wt_pct
  · exact worth_of hr.impact_mass_retained
  · exact worth_of hr.brown_c0
  · exact worth_of hr.brown_d0
  · exact worth_of hr.earth_moon_ratio
  · exact worth_of hr.impact_speed_mean
  · exact worth_of hr.impact_speed_sd
  · exact worth_of hr.escape_vel
  · exact worth_of hr.comet_ast_frac
  · exact worth_of hr.comet_density
  · exact worth_of hr.comet_hydrated_wt_pct
  · exact worth_of hr.comet_mass_retained
  · exact worth_of hr.comet_speed_min
  · exact worth_of hr.comet_speed_max
  · exact worth_of hr.jfc_speed_mean
  · exact worth_of hr.jfc_speed_sd
  · exact worth_of hr.jfc_frac
  · exact worth_of hr.lpc_speed_mean
  · exact worth_of hr.lpc_speed_sd
  · exact worth_of hr.lpc_frac
  · exact worth_of hr.volc_early_pct
  · exact worth_of hr.volc_late_pct
  · exact worth_of hr.volc_total_vol
  · exact worth_of hr.volc_ice_ppm
  · exact worth_of hr.volc_magma_density
  · exact worth_of hr.ballistic_sed_frac_lost
  · exact worth_of hr.mixing_ratio_a
  · exact worth_of hr.mixing_ratio_b
  · exact worth_of hr.polar_ejecta_temp_init
  · exact worth_of hr.basin_ejecta_temp_init_warm
  · exact worth_of hr.basin_ejecta_temp_init_cold
  · exact worth_of hr.overturn_depth_present
  · exact worth_of hr.overturn_ancient_slope
  · exact worth_of hr.overturn_ancient_t0

/-- Spec: the number an entry of a tuple stands for in arithmetic. -/
inductive Spec.EntryWorth : Atom → ℝ → Prop
  | float (q : ℚ) : EntryWorth (.float q) q
  | int (n : Int) : EntryWorth (.int n) n
  | yes : EntryWorth (.bool true) 1
  | no : EntryWorth (.bool false) 0

theorem entryWorth_iff {a : Atom} {x : ℝ} : a.num = some x ↔ Spec.EntryWorth a x := by
  constructor
  · intro h
    unfold Atom.num at h
    split at h
    · injection h with h; subst h; exact .float _
    · injection h with h; subst h; exact .int _
    · rename_i b
      injection h with h
      subst h
      cases b
      · exact .no
      · exact .yes
    · cases h
  · intro h
    cases h <;> simp [Atom.num]

theorem entries_of {l : List Atom} {xs : List ℝ} (h : l.mapM Atom.num = some xs) :
    List.Forall₂ Spec.EntryWorth l xs := by
  induction l generalizing xs with
  | nil => simp only [List.mapM_nil, pure, Option.some.injEq] at h; subst h; exact .nil
  | cons a l ih =>
    rw [List.mapM_cons] at h
    obtain ⟨x, h1, h⟩ := Option.bind_eq_some_iff.1 h
    obtain ⟨ys, h2, h⟩ := Option.bind_eq_some_iff.1 h
    injection h with h
    subst h
    exact .cons (entryWorth_iff.1 h1) (ih h2)

theorem texts_of {l : List Atom} {xs : List String} (h : l.mapM Atom.text = some xs) :
    l = xs.map fun s => .str s.toList := by
  induction l generalizing xs with
  | nil => simp only [List.mapM_nil, pure, Option.some.injEq] at h; subst h; rfl
  | cons a l ih =>
    rw [List.mapM_cons] at h
    obtain ⟨x, h1, h⟩ := Option.bind_eq_some_iff.1 h
    obtain ⟨ys, h2, h⟩ := Option.bind_eq_some_iff.1 h
    injection h with h
    subst h
    rw [List.map_cons, ← ih h2]
    unfold Atom.text at h1
    split at h1
    · injection h1 with h1
      rw [← h1, String.toList_ofList]
    · cases h1

/-- **C79** the tuples and the dictionary of a run hold the entries of their fields, in the same order;
`True` counts as 1.  An entry of the dictionary that is not four numbers is left out. -/
theorem C79_containers (c : CfgVals) (r : RunCfg) (h : RunCfg.ofVals c = some r) :
    (∀ p ∈ [("neukum_pf_a_2001", r.neukum_pf_a_2001), ("neukum_pf_a_1983", r.neukum_pf_a_1983)],
      ∃ l, c p.1 = .tuple l ∧ List.Forall₂ Spec.EntryWorth l p.2) ∧
    (∀ p ∈ [("volc_early", r.volc_early), ("volc_late", r.volc_late)],
      ∃ a b, c p.1 = .tuple [a, b] ∧ Spec.EntryWorth a p.2.1 ∧ Spec.EntryWorth b p.2.2) ∧
    c "coldtrap_names" = .tuple (r.coldtrap_names.map fun s => .str s.toList) ∧
    ∃ l, c "impact_regimes" = .dict l ∧ ∀ k x y z w, (k, x, y, z, w) ∈ r.impact_regimes ↔
      ∃ a b d e, (k.toList, [a, b, d, e]) ∈ l ∧ Spec.EntryWorth a x ∧ Spec.EntryWorth b y ∧
        Spec.EntryWorth d z ∧ Spec.EntryWorth e w := by
  have hr := reads_of h
  have nums : ∀ {v : PyVal} {xs : List ℝ}, asNums v = some xs →
      ∃ l, v = .tuple l ∧ List.Forall₂ Spec.EntryWorth l xs := by
    intro v xs h
    unfold asNums at h
    split at h
    · exact ⟨_, rfl, entries_of h⟩
    · cases h
  have pair : ∀ {v : PyVal} {x : ℝ × ℝ}, asPair v = some x →
      ∃ a b, v = .tuple [a, b] ∧ Spec.EntryWorth a x.1 ∧ Spec.EntryWorth b x.2 := by
    intro v x h
    unfold asPair at h
    split at h
    · obtain ⟨a, h1, h⟩ := Option.bind_eq_some_iff.1 h
      obtain ⟨b, h2, h⟩ := Option.bind_eq_some_iff.1 h
      injection h with h
      subst h
      exact ⟨_, _, rfl, entryWorth_iff.1 h1, entryWorth_iff.1 h2⟩
    · cases h
  refine ⟨?_, ?_, ?_, ?_⟩
  · intro p hp
    fin_cases hp
    · exact nums hr.neukum_pf_a_2001
    · exact nums hr.neukum_pf_a_1983
  · intro p hp
    fin_cases hp
    · exact pair hr.volc_early
    · exact pair hr.volc_late
  · have h := hr.coldtrap_names
    unfold asNames at h
    split at h
    · rename_i l hl
      rw [hl, texts_of h]
    · cases h
  · have h := hr.impact_regimes
    unfold asRegimes at h
    split at h
    · rename_i l hl
      injection h with h
      refine ⟨l, hl, ?_⟩
      intro k x y z w
      rw [← h, List.mem_filterMap]
      constructor
      · rintro ⟨⟨k', v⟩, h1, h2⟩
        unfold regimeEntry at h2
        simp only [] at h2
        split at h2
        · obtain ⟨x', e1, h2⟩ := Option.bind_eq_some_iff.1 h2
          obtain ⟨y', e2, h2⟩ := Option.bind_eq_some_iff.1 h2
          obtain ⟨z', e3, h2⟩ := Option.bind_eq_some_iff.1 h2
          obtain ⟨w', e4, h2⟩ := Option.bind_eq_some_iff.1 h2
          simp only [pure, Option.some.injEq, Prod.mk.injEq] at h2
          obtain ⟨rfl, rfl, rfl, rfl, rfl⟩ := h2
          exact ⟨_, _, _, _, by rw [String.toList_ofList]; exact h1, entryWorth_iff.1 e1,
            entryWorth_iff.1 e2, entryWorth_iff.1 e3, entryWorth_iff.1 e4⟩
        · cases h2
      · rintro ⟨a, b, d, e, h1, e1, e2, e3, e4⟩
        refine ⟨_, h1, ?_⟩
        unfold regimeEntry
        simp only [entryWorth_iff.2 e1, entryWorth_iff.2 e2, entryWorth_iff.2 e3, entryWorth_iff.2 e4,
          bind, Option.bind, pure, String.ofList_toList]
    · cases h

/-- **C79** a configuration written out and read back, anywhere and at any time, gives the same
run. -/
theorem C79_round_trip (env env' : Env) (kw : List (String × PyVal)) (c : CfgVals)
    (h : makeCfg env kw = .ok c) (hdraw : 1 ≤ env.draw ∧ env.draw ≤ 99998) :
    ∃ c', fromDict env' (toDict c) = .ok c' ∧ RunCfg.ofVals c' = RunCfg.ofVals c := by
  obtain ⟨c', h1, h2, h3⟩ := C56_round_trip_partial env env' kw c h hdraw
  refine ⟨c', h1, ofVals_congr h3 fun f hf => ?_⟩
  obtain ⟨d, hd, rfl, hp⟩ := runFields_plain f hf
  exact h2 d hd ((isPlain_iff _).1 hp)

/-- **C79** `get_comet_cfg` gives the run configuration with the four comet values. -/
theorem C79_comet (env env' : Env) (kw : List (String × PyVal)) (c : CfgVals) (r : RunCfg)
    (h : makeCfg env kw = .ok c) (hdraw : 1 ≤ env.draw ∧ env.draw ≤ 99998)
    (hr : RunCfg.ofVals c = some r) :
    ∃ c', getCometCfg env' c = .ok c' ∧ RunCfg.ofVals c' = some r.comet := by
  obtain ⟨c', h1, k1, k2, k3, k4, ks, hrest⟩ := C58_comet env env' kw c h hdraw
  refine ⟨c', h1, of_reads (reads_comet (reads_of hr) ks k1 k2 k3 k4 fun f hf hn => ?_)⟩
  obtain ⟨d, hd, rfl, hp⟩ := runFields_plain f hf
  exact hrest d hd ((isPlain_iff _).1 hp) hn

/-! ## Seeds -/

theorem find_set (d : List (String × PyVal)) (k : String) (v : PyVal) {f : String} (h : f ≠ k) :
    (PyDict.set d k v).find? (fun kv => decide (kv.1 = f)) =
      d.find? (fun kv => decide (kv.1 = f)) := by
  induction d with
  | nil => simp [PyDict.set, h.symm]
  | cons a d ih =>
    obtain ⟨k', v'⟩ := a
    unfold PyDict.set
    split
    · rename_i e
      subst e
      rw [List.find?_cons_of_neg (by simpa using h.symm), List.find?_cons_of_neg (by simpa using h.symm)]
    · rw [List.find?_cons, List.find?_cons, ih]

theorem initFields_set {file : List (String × PyVal)} {c0 c0' : CfgVals} {v : PyVal} {f : String}
    (h : initFields file = .ok c0) (h' : initFields (PyDict.set file "seed" v) = .ok c0')
    (hf : f ≠ "seed") : c0' f = c0 f := by
  unfold initFields at h h'
  split at h
  · split at h'
    · cases h
      cases h'
      simp only [find_set file "seed" v hf]
    · cases h'
  · cases h

/-- **C79** a seed given on the command line replaces the seed and nothing else of the run. -/
theorem C79_seed_only (env : Env) (file : List (String × PyVal)) (hnd : (file.map (·.1)).Nodup)
    (n : Int) (hn : n ≠ 0) (c c' : CfgVals) (r : RunCfg)
    (h : readCustomCfg env (some file) none = .ok c) (hr : RunCfg.ofVals c = some r)
    (h' : readCustomCfg env (some file) (some n) = .ok c') :
    RunCfg.ofVals c' = some { r with seed := n } := by
  have hseed := C59_seed env file n hn c' hnd h'
  have h : makeCfg env file = .ok c := h
  have h' : makeCfg env (PyDict.set file "seed" (.int n)) = .ok c' := h'
  refine of_reads (reads_seed (reads_of hr) hseed fun f hf => ?_)
  obtain ⟨d, hd, rfl, hp⟩ := runFields_plain f hf
  obtain ⟨c0, c4, c5, m, md, pd, out, st⟩ := makeCfg_steps h
  obtain ⟨c0', c4', c5', m', md', pd', out', st'⟩ := makeCfg_steps h'
  have e0 := fun f => initFields_set (f := f) st.init st'.init
  have e1 := st.mode
  have e2 := st.pole
  rw [← e0 "mode" (by decide), st'.mode, Except.ok.injEq] at e1
  rw [← e0 "pole" (by decide), st'.pole, Except.ok.injEq] at e2
  have k := st.plain hd hp
  have k' := st'.plain hd hp
  rw [e1, e2, fill_congr _ _ _ _ (fill_congr _ _ _ _ (e0 _ (isPlain_ne hp).1)), k,
    Except.ok.injEq] at k'
  exact k'.symm

/-! ## The standard configurations -/

/-- The arguments of the four standard configurations. -/
def stdArgs (mode pole : String) (n : Int) : List (String × PyVal) :=
  [("mode", .str mode.toList), ("pole", .str pole.toList), ("seed", .int n)]

/-- The value of a field that was not given, where it does not depend on the environment. -/
def stdVal (md pd : List (String × PyVal)) (d : FieldDecl) : Option PyVal :=
  match d.type, fillNone (fillNone (fun _ => d.dflt) md) pd d.name with
  | .int, .float q => some (.int (truncRat q))
  | .float, .int n => if n.natAbs < 2 ^ 1024 then some (.float n) else none
  | ty, v => if isInstance ty v then some v else none

theorem enforce_std {env : Env} {md pd : List (String × PyVal)} {d : FieldDecl} {w : PyVal}
    (h : stdVal md pd d = some w) :
    enforceOne env d (fillNone (fillNone (fun _ => d.dflt) md) pd d.name) = .ok w := by
  unfold stdVal at h
  unfold enforceOne
  split at h
  · rename_i q ht hq
    cases h
    rw [ht, hq]
    rfl
  · rename_i n ht hq
    rw [ht, hq, if_neg (by simp [isInstance])]
    unfold castTo
    simp only [pyFloat_int]
    split at h
    · rename_i hn
      cases h
      rw [if_pos hn]
    · cases h
  · split at h
    · rename_i hi
      cases h
      rw [if_pos hi]
    · cases h

theorem std_value {env : Env} {m p : String} {n : Int} {c : CfgVals}
    (h : makeCfg env (stdArgs m p n) = .ok c) {md pd : List (String × PyVal)}
    (hm : dictGet modeDict (.str m.toList) = .ok md) (hp : dictGet poleDict (.str p.toList) = .ok pd)
    {l : List (String × PyVal)}
    (hl : ∀ fv ∈ l, ∃ d ∈ cfgFields, d.name = fv.1 ∧ isPlain d.name = true ∧
      d.name ∉ ["mode", "pole", "seed"] ∧ stdVal md pd d = some fv.2) :
    ∀ fv ∈ l, c fv.1 = fv.2 := by
  intro fv hfv
  obtain ⟨d, hd, e, hpl, hn, hv⟩ := hl fv hfv
  obtain ⟨c0, c4, c5, k, md', pd', out, st⟩ := makeCfg_steps h
  have hnd : ((stdArgs m p n).map (·.1)).Nodup := by
    show ["mode", "pole", "seed"].Nodup
    decide
  have i := initFields_ok st.init
  have e1 := st.mode
  rw [i.2.1 "mode" (.str m.toList) hnd (by simp [stdArgs]), hm, Except.ok.injEq] at e1
  have e2 := st.pole
  rw [i.2.1 "pole" (.str p.toList) hnd (by simp [stdArgs]), hp, Except.ok.injEq] at e2
  have h1 := st.plain hd hpl
  rw [← e1, ← e2, fill_congr _ _ _ _ (fill_congr _ c0 (fun _ => d.dflt) _ (i.2.2 d hd hn)),
    enforce_std hv, Except.ok.injEq] at h1
  rw [← e, ← h1]

theorem common_std : ∀ m ∈ modeDict, ∀ p ∈ poleDict, ∀ fv ∈ commonTable, ∃ d ∈ cfgFields,
    d.name = fv.1 ∧ isPlain d.name = true ∧ d.name ∉ ["mode", "pole", "seed"] ∧
      stdVal m.2 p.2 d = some fv.2 := by decide +kernel

theorem switch_std : ∀ m ∈ [(modeCannon, false), (modeMoonpies, true)], ∀ p ∈ poleDict,
    ∀ fv ∈ switchTable m.2, ∃ d ∈ cfgFields, d.name = fv.1 ∧ isPlain d.name = true ∧
      d.name ∉ ["mode", "pole", "seed"] ∧ stdVal m.1 p.2 d = some fv.2 := by decide +kernel

/-- Names as they stand in the tuple. -/
def nameAtoms (l : List String) : List Atom := l.map (fun s => .str s.toList)

theorem south_std : ∀ m ∈ modeDict, ∀ fv ∈ poleTable (27 / 500) (13 / 50) 13000000000 104000000
      (nameAtoms Spec.southNames), ∃ d ∈ cfgFields, d.name = fv.1 ∧ isPlain d.name = true ∧
      d.name ∉ ["mode", "pole", "seed"] ∧ stdVal m.2 poleSouth d = some fv.2 := by decide +kernel

theorem north_std : ∀ m ∈ modeDict, ∀ fv ∈ poleTable (27 / 1000) (3 / 20) 5300000000 0
      (nameAtoms Spec.northNames), ∃ d ∈ cfgFields, d.name = fv.1 ∧ isPlain d.name = true ∧
      d.name ∉ ["mode", "pole", "seed"] ∧ stdVal m.2 poleNorth d = some fv.2 := by decide +kernel

theorem nameAtoms_text (l : List String) : (nameAtoms l).mapM Atom.text = some l := by
  unfold nameAtoms
  induction l with
  | nil => rfl
  | cons a l ih =>
    rw [List.map_cons, List.mapM_cons, ih]
    simp [Atom.text]

theorem stdArgs_good (m p : String) (n : Int) (hm : m = "cannon" ∨ m = "moonpies")
    (hp : p = "s" ∨ p = "n") : GoodArgs (stdArgs m p n) := by
  have hd : (∃ d ∈ cfgFields, d.name = "mode" ∧ d.type = .str) ∧
      (∃ d ∈ cfgFields, d.name = "pole" ∧ d.type = .str) ∧
      ∃ d ∈ cfgFields, d.name = "seed" ∧ d.type = .int := by decide +kernel
  obtain ⟨⟨d1, a1, b1, c1⟩, ⟨d2, a2, b2, c2⟩, ⟨d3, a3, b3, c3⟩⟩ := hd
  refine ⟨by show ["mode", "pole", "seed"].Nodup; decide, ?_, ?_, ?_⟩
  · intro kv hkv
    simp only [stdArgs, List.mem_cons, List.not_mem_nil, or_false] at hkv
    rcases hkv with rfl | rfl | rfl
    · exact ⟨d1, a1, b1, .inl (c1 ▸ .has (.str _))⟩
    · exact ⟨d2, a2, b2, .inl (c2 ▸ .has (.str _))⟩
    · exact ⟨d3, a3, b3, .inl (c3 ▸ .has (.int _))⟩
  · intro v hv
    simp only [stdArgs, List.mem_cons, List.not_mem_nil, or_false, Prod.mk.injEq] at hv
    rcases hv with ⟨-, rfl⟩ | ⟨h, -⟩ | ⟨h, -⟩
    · rcases hm with rfl | rfl
      · exact .inl rfl
      · exact .inr rfl
    · exact absurd h (by decide)
    · exact absurd h (by decide)
  · intro v hv
    simp only [stdArgs, List.mem_cons, List.not_mem_nil, or_false, Prod.mk.injEq] at hv
    rcases hv with ⟨h, -⟩ | ⟨-, rfl⟩ | ⟨h, -⟩
    · exact absurd h (by decide)
    · rcases hp with rfl | rfl
      · exact .inl rfl
      · exact .inr rfl
    · exact absurd h (by decide)

theorem std_seed {env : Env} {m p : String} {n : Int} {c : CfgVals} (hn : n ≠ 0)
    (h : makeCfg env (stdArgs m p n) = .ok c) : c "seed" = .int n :=
  C55_kept env _ c h (by show ["mode", "pole", "seed"].Nodup; decide) (.int n) (by simp [stdArgs]) n
    (.int n) hn

theorem std_mode {env : Env} {m p : String} {n : Int} {c : CfgVals}
    (h : makeCfg env (stdArgs m p n) = .ok c) : c "mode" = .str m.toList := by
  obtain ⟨d, hd, e, t⟩ := decl_mode
  have := C54_unchanged env _ c h (by show ["mode", "pole", "seed"].Nodup; decide) d hd
    (by rw [e]; exact (isPlain_iff _).1 (by decide +kernel)) (.str m.toList)
    (by rw [e]; simp [stdArgs]) (by rw [t]; constructor)
  rwa [e] at this

/-- **C79** in every environment the four standard configurations can be built, and a run reads
from them the published numbers: `RunCfg.default`, `RunCfg.cannon`, and the settings of the north
pole. -/
theorem C79_standard (env : Env) (n : Int) (hn : n ≠ 0) :
    (∃ c, makeCfg env (stdArgs "moonpies" "s" n) = .ok c ∧ RunCfg.ofVals c = some (RunCfg.default n)) ∧
    (∃ c, makeCfg env (stdArgs "cannon" "s" n) = .ok c ∧ RunCfg.ofVals c = some (RunCfg.cannon n)) ∧
    (∃ c, makeCfg env (stdArgs "moonpies" "n" n) = .ok c ∧
      RunCfg.ofVals c = some (RunCfg.default n).north) ∧
    ∃ c, makeCfg env (stdArgs "cannon" "n" n) = .ok c ∧
      RunCfg.ofVals c = some (RunCfg.cannon n).north := by
  refine ⟨?_, ?_, ?_, ?_⟩
  · obtain ⟨c, hc, -⟩ := C79_accepted env _ (stdArgs_good "moonpies" "s" n (.inr rfl) (.inl rfl))
    refine ⟨c, hc, ?_⟩
    rw [decode_std c n _ true _ _ _ _ _ _ (nameAtoms_text _) (std_seed hn hc) (std_mode hc)
      (std_value hc rfl rfl (common_std ("moonpies".toList, modeMoonpies) (by simp [modeDict])
        ("s".toList, poleSouth) (by simp [poleDict])))
      (std_value hc rfl rfl (switch_std (modeMoonpies, true) (by simp)
        ("s".toList, poleSouth) (by simp [poleDict])))
      (std_value hc rfl rfl (south_std ("moonpies".toList, modeMoonpies) (by simp [modeDict])))]
    norm_num [RunCfg.default, Spec.southNames]
  · obtain ⟨c, hc, -⟩ := C79_accepted env _ (stdArgs_good "cannon" "s" n (.inl rfl) (.inl rfl))
    refine ⟨c, hc, ?_⟩
    rw [decode_std c n _ false _ _ _ _ _ _ (nameAtoms_text _) (std_seed hn hc) (std_mode hc)
      (std_value hc rfl rfl (common_std ("cannon".toList, modeCannon) (by simp [modeDict])
        ("s".toList, poleSouth) (by simp [poleDict])))
      (std_value hc rfl rfl (switch_std (modeCannon, false) (by simp)
        ("s".toList, poleSouth) (by simp [poleDict])))
      (std_value hc rfl rfl (south_std ("cannon".toList, modeCannon) (by simp [modeDict])))]
    norm_num [RunCfg.default, RunCfg.cannon, Spec.southNames]
  · obtain ⟨c, hc, -⟩ := C79_accepted env _ (stdArgs_good "moonpies" "n" n (.inr rfl) (.inr rfl))
    refine ⟨c, hc, ?_⟩
    rw [decode_std c n _ true _ _ _ _ _ _ (nameAtoms_text _) (std_seed hn hc) (std_mode hc)
      (std_value hc rfl rfl (common_std ("moonpies".toList, modeMoonpies) (by simp [modeDict])
        ("n".toList, poleNorth) (by simp [poleDict])))
      (std_value hc rfl rfl (switch_std (modeMoonpies, true) (by simp)
        ("n".toList, poleNorth) (by simp [poleDict])))
      (std_value hc rfl rfl (north_std ("moonpies".toList, modeMoonpies) (by simp [modeDict])))]
    norm_num [RunCfg.default, RunCfg.north, Spec.northNames]
  · obtain ⟨c, hc, -⟩ := C79_accepted env _ (stdArgs_good "cannon" "n" n (.inl rfl) (.inr rfl))
    refine ⟨c, hc, ?_⟩
    rw [decode_std c n _ false _ _ _ _ _ _ (nameAtoms_text _) (std_seed hn hc) (std_mode hc)
      (std_value hc rfl rfl (common_std ("cannon".toList, modeCannon) (by simp [modeDict])
        ("n".toList, poleNorth) (by simp [poleDict])))
      (std_value hc rfl rfl (switch_std (modeCannon, false) (by simp)
        ("n".toList, poleNorth) (by simp [poleDict])))
      (std_value hc rfl rfl (north_std ("cannon".toList, modeCannon) (by simp [modeDict])))]
    norm_num [RunCfg.default, RunCfg.cannon, RunCfg.north, Spec.northNames]

theorem default_entries :
    cfgFields.find? (fun d => decide (d.name = "mode")) = some ⟨"mode", .str, .str "moonpies".toList⟩ ∧
    cfgFields.find? (fun d => decide (d.name = "pole")) = some ⟨"pole", .str, .str "s".toList⟩ :=
  ⟨rfl, rfl⟩

/-- Naming the default mode and pole changes nothing. -/
theorem init_std (n : Int) :
    initFields [("seed", .int n)] = initFields (stdArgs "moonpies" "s" n) := by
  obtain ⟨c1, h1⟩ := initFields_accepts (kw := [("seed", .int n)]) (by
    intro kv hkv
    rw [List.mem_singleton] at hkv
    subst hkv
    obtain ⟨d, hd, e, -⟩ := decl_seed
    exact ⟨d, hd, e⟩)
  obtain ⟨c2, h2⟩ := initFields_accepts (kw := stdArgs "moonpies" "s" n) (fun kv hkv => by
    obtain ⟨d, hd, h, -⟩ := (stdArgs_good "moonpies" "s" n (.inr rfl) (.inl rfl)).fits kv hkv
    exact ⟨d, hd, h⟩)
  rw [h1, h2]
  congr 1
  unfold initFields at h1 h2
  split at h1
  · split at h2
    · cases h1
      cases h2
      funext f
      by_cases e1 : f = "mode"
      · subst e1
        rw [default_entries.1]
        rfl
      · by_cases e2 : f = "pole"
        · subst e2
          rw [default_entries.2]
          rfl
        · have e : (stdArgs "moonpies" "s" n).find? (fun kv => decide (kv.1 = f)) =
              [("seed", PyVal.int n)].find? (fun kv => decide (kv.1 = f)) := by
            unfold stdArgs
            rw [List.find?_cons_of_neg (by simpa using fun h => e1 h.symm),
              List.find?_cons_of_neg (by simpa using fun h => e2 h.symm)]
          rw [e]
    · cases h2
  · cases h1

/-- **C79** started from the command line with a seed and no file, on any machine, a run computes
with the published default numbers and completes with the shipped data. -/
theorem C79_command_line {σ : Type} (env : Env) (n : Int) (hn : n ≠ 0) (g : Gen σ)
    (hg : LawfulGen g) (nk : List (ℝ × ℝ)) (sortAges : CraterTable → CraterTable)
    (sortNk : List (ℝ × ℝ) → List (ℝ × ℝ)) (setOrder : List (List Char) → List (List Char))
    (hs : Spec.SortDesc sortAges) :
    ∃ c out, readCustomCfg env none (some n) = .ok c ∧
      RunCfg.ofVals c = some (RunCfg.default n) ∧
      runMain g (RunCfg.default n) (shippedData nk sortAges sortNk setOrder) = .ok out := by
  obtain ⟨⟨c, hc, hr⟩, -⟩ := C79_standard env n hn
  obtain ⟨⟨out, ho⟩, -⟩ := C74_default_returns nk sortAges sortNk setOrder g hg hs n
  refine ⟨c, out, ?_, hr, ho⟩
  show makeCfg env [("seed", .int n)] = .ok c
  unfold makeCfg at hc ⊢
  rw [init_std]
  exact hc

/-- **C79** with the pole set to north, in either mode, a configuration is built but no run with
the shipped data completes. -/
theorem C79_north_fails {σ : Type} (env : Env) (n : Int) (hn : n ≠ 0) (m : String)
    (hm : m = "cannon" ∨ m = "moonpies") (g : Gen σ) (nk : List (ℝ × ℝ))
    (sortAges : CraterTable → CraterTable) (sortNk : List (ℝ × ℝ) → List (ℝ × ℝ))
    (setOrder : List (List Char) → List (List Char)) (hs : Spec.SortDesc sortAges) :
    ∃ c r, makeCfg env (stdArgs m "n" n) = .ok c ∧ RunCfg.ofVals c = some r ∧
      ∀ out, runMain g r (shippedData nk sortAges sortNk setOrder) ≠ .ok out := by
  obtain ⟨-, -, ⟨c, hc, hr⟩, ⟨c', hc', hr'⟩⟩ := C79_standard env n hn
  rcases hm with rfl | rfl
  · exact ⟨c', _, hc', hr', fun out => C74_north_never_returns nk sortAges sortNk setOrder g hs _ out⟩
  · exact ⟨c, _, hc, hr, fun out => C74_north_never_returns nk sortAges sortNk setOrder g hs _ out⟩

/-- Arguments with a whole float for an integer field, an integer for a float field, an option
switched off and another left to the mode. -/
example : GoodArgs [("timestep", .float 5000000), ("ice_density", .int 917),
    ("ballistic_sed", .bool false), ("solar_wind_ice", .none), ("mode", .str "cannon".toList)] := by
  refine ⟨by simp, ?_, ?_, ?_⟩
  · have : ∀ kv ∈ [("timestep", PyVal.float 5000000), ("ice_density", .int 917),
        ("ballistic_sed", .bool false), ("solar_wind_ice", .none), ("mode", .str "cannon".toList)],
        ∃ d ∈ cfgFields, d.name = kv.1 ∧
          (fitsB d.type kv.2 = true ∨ (kv.2 = .none ∧ kv.1 ∈ Spec.options.map (·.1))) := by
      decide +kernel
    intro kv hkv
    obtain ⟨d, hd, e, h⟩ := this kv hkv
    exact ⟨d, hd, e, h.imp_left fits_of_fitsB⟩
  · intro v hv
    simp only [List.mem_cons, List.not_mem_nil, or_false, Prod.mk.injEq] at hv
    rcases hv with ⟨h, -⟩ | ⟨h, -⟩ | ⟨h, -⟩ | ⟨h, -⟩ | ⟨-, rfl⟩
    · exact absurd h (by decide)
    · exact absurd h (by decide)
    · exact absurd h (by decide)
    · exact absurd h (by decide)
    · exact .inl rfl
  · intro v hv
    simp only [List.mem_cons, List.not_mem_nil, or_false, Prod.mk.injEq] at hv
    rcases hv with ⟨h, -⟩ | ⟨h, -⟩ | ⟨h, -⟩ | ⟨h, -⟩ | ⟨h, -⟩ <;> exact absurd h (by decide)

/-- A seed on the command line over a file with another seed and the other mode. -/
example : ∃ c, readCustomCfg env0 (some (stdArgs "cannon" "s" 5)) (some 42) = .ok c ∧
    RunCfg.ofVals c = some (RunCfg.cannon 42) := by
  obtain ⟨-, ⟨c, hc, hr⟩, -⟩ := C79_standard env0 5 (by decide)
  obtain ⟨-, ⟨c', hc', -⟩, -⟩ := C79_standard env0 42 (by decide)
  refine ⟨c', hc', ?_⟩
  rw [C79_seed_only env0 (stdArgs "cannon" "s" 5) (by show ["mode", "pole", "seed"].Nodup; decide) 42
    (by decide) c c' _ hc hr hc']
  rfl

end MoonPIES
