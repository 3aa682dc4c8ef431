import Mathlib.Algebra.Order.Floor.Ring
import Mathlib.Tactic.Linarith
import Verif.Lemmas.Config
import Verif.Spec.Config

/-!
# C53-C55: run configuration defaults, types and seed
-/

namespace MoonPIES

open Spec

/-! ## Helpers -/

theorem isInstance_iff (ty : PyType) (v : PyVal) : isInstance ty v = true ↔ HasType ty v := by
  constructor
  · intro h
    cases ty <;> cases v <;> first | (exfalso; revert h; simp [isInstance]; done) | constructor
  · intro h
    cases h <;> rfl

theorem castTo_hasType {env : Env} {ty : PyType} {v w : PyVal} (h : castTo env ty v = .ok w) :
    HasType ty w := by
  unfold castTo at h
  cases ty with
  | bool => cases h; constructor
  | int =>
    simp only [] at h
    cases hp : pyIntOf env v with
    | error e => rw [hp] at h; cases h
    | ok n => rw [hp] at h; cases h; constructor
  | float =>
    simp only [] at h
    unfold pyFloat at h
    cases v with
    | bool b => cases h; constructor
    | int n =>
      simp only [] at h
      split at h
      · cases h; constructor
      · cases h
    | float q => cases h; constructor
    | inf b => cases h; constructor
    | nan => cases h; constructor
    | str s =>
      simp only [] at h
      cases hp : env.parseFloat s with
      | none => rw [hp] at h; cases h
      | some f =>
        rw [hp] at h
        cases h
        cases f <;> constructor
    | _ => cases h
  | str => cases h; constructor
  | tuple =>
    simp only [] at h
    cases hp : pyTuple v with
    | error e => rw [hp] at h; cases h
    | ok n => rw [hp] at h; cases h; constructor
  | dict =>
    simp only [] at h
    cases hp : env.dictOf v with
    | error e => rw [hp] at h; cases h
    | ok n => rw [hp] at h; cases h; constructor

theorem pyFloat_int (env : Env) (n : Int) : pyFloat env (.int n) =
    if n.natAbs < 2 ^ 1024 then .ok (.float n) else .error .overflowError := rfl

theorem enforceOne_hasType {env : Env} {d : FieldDecl} {v w : PyVal} (h : enforceOne env d v = .ok w) :
    HasType d.type w := by
  unfold enforceOne at h
  split at h
  · rename_i hi
    cases h
    exact (isInstance_iff _ _).1 hi
  · exact castTo_hasType h

theorem enforceOne_id {env : Env} {d : FieldDecl} {v : PyVal} (h : HasType d.type v) :
    enforceOne env d v = .ok v := by
  unfold enforceOne
  rw [if_pos ((isInstance_iff _ _).2 h)]

theorem isPlain_iff (f : String) : isPlain f = true ↔ ¬ Recomputed f := by
  unfold isPlain Recomputed
  simp only [Bool.and_eq_true, decide_eq_true_eq, Bool.not_eq_true', ne_eq, not_or]
  rw [← Bool.not_eq_true, ← Bool.not_eq_true, ← Bool.not_eq_true, List.isSuffixOf_iff_suffix,
    List.isSuffixOf_iff_suffix, List.isSuffixOf_iff_suffix]
  tauto

/-- A field given by the user and not recomputed. -/
theorem given_field {env : Env} {kw : List (String × PyVal)} {c : CfgVals}
    (h : makeCfg env kw = .ok c) (hnd : (kw.map (·.1)).Nodup) {d : FieldDecl} (hd : d ∈ cfgFields)
    (hp : ¬ Recomputed d.name) {v : PyVal} (hv : (d.name, v) ∈ kw) (hne : v ≠ .none) :
    enforceOne env d v = .ok (c d.name) := by
  obtain ⟨c0, c4, c5, n, md, pd, out, st⟩ := makeCfg_steps h
  have h1 := st.plain hd ((isPlain_iff _).2 hp)
  have h0 := (initFields_ok st.init).2.1 _ _ hnd hv
  have e1 : fillNone c0 md d.name = v := by
    rw [fillNone_of_ne_none _ _ _ (by rw [h0]; exact hne), h0]
  rwa [fillNone_of_ne_none _ _ _ (by rw [e1]; exact hne), e1] at h1

theorem init_omitted {kw : List (String × PyVal)} {c0 : CfgVals} (hi : initFields kw = .ok c0)
    (hnd : (kw.map (·.1)).Nodup) {d : FieldDecl} (hd : d ∈ cfgFields) (hdf : d.dflt = .none)
    (ho : Omitted kw d.name) : c0 d.name = .none := by
  rcases ho with ho | ho
  · rw [(initFields_ok hi).2.2 d hd ho, hdf]
  · exact (initFields_ok hi).2.1 _ _ hnd ho

theorem decl_mode : ∃ d ∈ cfgFields, d.name = "mode" ∧ d.type = .str := by decide +kernel
theorem decl_pole : ∃ d ∈ cfgFields, d.name = "pole" ∧ d.type = .str := by decide +kernel
theorem decl_seed : ∃ d ∈ cfgFields, d.name = "seed" ∧ d.type = .int ∧ d.dflt = .int 0 := by
  decide +kernel

theorem Steps.mode_eq {env : Env} {kw : List (String × PyVal)} {c c0 c4 c5 : CfgVals} {n : Int}
    {md pd : List (String × PyVal)} {out : Str} (st : Steps env kw c c0 c4 c5 n md pd out) :
    ∃ s, c "mode" = .str s ∧ c0 "mode" = .str s ∧ (s, md) ∈ modeDict := by
  obtain ⟨s, hs, hm⟩ := dictGet_ok st.mode
  obtain ⟨d, hd, hn, ht⟩ := decl_mode
  have h1 := st.plain hd (by rw [hn]; decide +kernel)
  have e1 : fillNone c0 md d.name = .str s := by
    rw [hn, fillNone_of_ne_none _ _ _ (by rw [hs]; exact (fun h => by cases h)), hs]
  rw [fillNone_of_ne_none _ _ _ (by rw [e1]; exact (fun h => by cases h)), e1,
    enforceOne_id (by rw [ht]; exact .str s), hn] at h1
  cases h1' : c "mode" <;> rw [h1'] at h1 <;> cases h1
  exact ⟨s, rfl, hs, hm⟩

theorem Steps.pole_eq {env : Env} {kw : List (String × PyVal)} {c c0 c4 c5 : CfgVals} {n : Int}
    {md pd : List (String × PyVal)} {out : Str} (st : Steps env kw c c0 c4 c5 n md pd out) :
    ∃ s, c "pole" = .str s ∧ c0 "pole" = .str s ∧ (s, pd) ∈ poleDict := by
  obtain ⟨s, hs, hm⟩ := dictGet_ok st.pole
  obtain ⟨d, hd, hn, ht⟩ := decl_pole
  have h1 := st.plain hd (by rw [hn]; decide +kernel)
  have e1 : fillNone c0 md d.name = .str s := by
    rw [hn, fillNone_of_ne_none _ _ _ (by rw [hs]; exact (fun h => by cases h)), hs]
  rw [fillNone_of_ne_none _ _ _ (by rw [e1]; exact (fun h => by cases h)), e1,
    enforceOne_id (by rw [ht]; exact .str s), hn] at h1
  cases h1' : c "pole" <;> rw [h1'] at h1 <;> cases h1
  exact ⟨s, rfl, hs, hm⟩

theorem options_decl : ∀ e ∈ Spec.options, ∃ d ∈ cfgFields, d.name = e.1 ∧ d.type = e.2 ∧
    isPlain d.name = true := by decide +kernel

/-! ## C53 -/

/-- **C53** an option the user sets keeps the user's value: unchanged when it has the declared
type, converted to that type otherwise. -/
theorem C53_explicit (env : Env) (kw : List (String × PyVal)) (c : CfgVals)
    (h : makeCfg env kw = .ok c) (hnd : (kw.map (·.1)).Nodup) (p : String) (ty : PyType)
    (hp : (p, ty) ∈ Spec.options) (v : PyVal) (hv : (p, v) ∈ kw) (hne : v ≠ .none) :
    (HasType ty v → c p = v) ∧ (¬ HasType ty v → castTo env ty v = .ok (c p)) := by
  obtain ⟨d, hd, h1, h2, h3⟩ := options_decl _ hp
  simp only [] at h1 h2
  subst h1 h2
  have := given_field h hnd hd ((isPlain_iff _).1 h3) hv hne
  constructor
  · intro ht
    rw [enforceOne_id ht] at this
    cases this; rfl
  · intro ht
    unfold enforceOne at this
    rwa [if_neg (by rw [isInstance_iff]; exact ht)] at this

/-- **C53** the mode is the one the user gives, `moonpies` when none is given; other modes do
not construct.  Likewise the pole, with `s` the default. -/
theorem C53_mode_pole (env : Env) (kw : List (String × PyVal)) (c : CfgVals)
    (h : makeCfg env kw = .ok c) (hnd : (kw.map (·.1)).Nodup) :
    (c "mode" = .str "cannon".toList ∨ c "mode" = .str "moonpies".toList) ∧
    (c "pole" = .str "s".toList ∨ c "pole" = .str "n".toList) ∧
    (∀ v, ("mode", v) ∈ kw → c "mode" = v) ∧ (∀ v, ("pole", v) ∈ kw → c "pole" = v) ∧
    ("mode" ∉ kw.map (·.1) → c "mode" = .str "moonpies".toList) ∧
    ("pole" ∉ kw.map (·.1) → c "pole" = .str "s".toList) := by
  obtain ⟨c0, c4, c5, n, md, pd, out, st⟩ := makeCfg_steps h
  obtain ⟨s, e1, e2, e3⟩ := st.mode_eq
  obtain ⟨s', f1, f2, f3⟩ := st.pole_eq
  refine ⟨?_, ?_, ?_, ?_, ?_, ?_⟩
  · rw [e1]
    simp only [modeDict, List.mem_cons, Prod.mk.injEq, List.not_mem_nil, or_false] at e3
    rcases e3 with ⟨rfl, _⟩ | ⟨rfl, _⟩
    · exact Or.inl rfl
    · exact Or.inr rfl
  · rw [f1]
    simp only [poleDict, List.mem_cons, Prod.mk.injEq, List.not_mem_nil, or_false] at f3
    rcases f3 with ⟨rfl, _⟩ | ⟨rfl, _⟩
    · exact Or.inl rfl
    · exact Or.inr rfl
  · intro v hv
    rw [e1, ← e2, (initFields_ok st.init).2.1 _ _ hnd hv]
  · intro v hv
    rw [f1, ← f2, (initFields_ok st.init).2.1 _ _ hnd hv]
  · intro hn
    have : ∃ d ∈ cfgFields, d.name = "mode" ∧ d.dflt = .str "moonpies".toList := by decide +kernel
    obtain ⟨d, hd, h1, h2⟩ := this
    have := (initFields_ok st.init).2.2 d hd (by rw [h1]; exact hn)
    rw [h1, h2] at this
    rw [e1, ← e2, this]
  · intro hn
    have : ∃ d ∈ cfgFields, d.name = "pole" ∧ d.dflt = .str "s".toList := by decide +kernel
    obtain ⟨d, hd, h1, h2⟩ := this
    have := (initFields_ok st.init).2.2 d hd (by rw [h1]; exact hn)
    rw [h1, h2] at this
    rw [f1, ← f2, this]

theorem mode_table : ∀ e ∈ modeDict, ∀ p ∈ modeSwitches,
    (p, .bool (decide (e.1 = "moonpies".toList))) ∈ e.2 ∧
      ∃ d ∈ cfgFields, d.name = p ∧ isPlain d.name = true ∧ d.dflt = .none ∧ d.type = .bool := by
  decide +kernel

/-- **C53** (partial) a switch the user omits is off in `cannon` mode and on in `moonpies`
mode.  Missing: the mean impact speed, see `C53_impact_speed_refuted`. -/
theorem C53_mode_defaults_partial (env : Env) (kw : List (String × PyVal)) (c : CfgVals)
    (h : makeCfg env kw = .ok c) (hnd : (kw.map (·.1)).Nodup) (p : String) (hp : p ∈ modeSwitches)
    (ho : Omitted kw p) :
    (c "mode" = .str "cannon".toList → c p = .bool false) ∧
    (c "mode" = .str "moonpies".toList → c p = .bool true) := by
  obtain ⟨c0, c4, c5, n, md, pd, out, st⟩ := makeCfg_steps h
  obtain ⟨s, e1, e2, e3⟩ := st.mode_eq
  obtain ⟨hm, d, hd, h1, h2, h3, h4⟩ := mode_table _ e3 p hp
  have h0 : c0 p = .none := h1 ▸ init_omitted st.init hnd hd h3 (by rw [h1]; exact ho)
  have hf := fillNone_mem md c0 p _ (tables_nodup _ (List.mem_append_left _ e3)) hm h0
  have hf2 : fillNone (fillNone c0 md) pd p = .bool (decide (s = "moonpies".toList)) := by
    rw [fillNone_of_ne_none _ _ _ (by rw [hf]; exact (fun h => by cases h)), hf]
  have hc := st.plain hd h2
  rw [h1, hf2, enforceOne_id (by rw [h4]; constructor)] at hc
  cases hcp : c p <;> rw [hcp] at hc <;> cases hc
  rw [e1]
  constructor
  · intro h; cases h; rfl
  · intro h; cases h; rfl

theorem pole_table : ∀ e ∈ poleDict,
    (∀ q ∈ (if e.1 = "s".toList then southValues else northValues),
      ((q.1, .float q.2) ∈ e.2 ∨ ((q.1, .int 0) ∈ e.2 ∧ q.2 = 0)) ∧
      (∀ m ∈ modeDict, q.1 ∉ m.2.map (·.1)) ∧
      ∃ d ∈ cfgFields, d.name = q.1 ∧ isPlain d.name = true ∧ d.dflt = .none ∧ d.type = .float) ∧
    ("coldtrap_names", .tuple ((if e.1 = "s".toList then southNames else northNames).map
      (fun x => .str x.toList))) ∈ e.2 := by decide +kernel

theorem names_table : (∀ m ∈ modeDict, "coldtrap_names" ∉ m.2.map (·.1)) ∧
    ∃ d ∈ cfgFields, d.name = "coldtrap_names" ∧ isPlain d.name = true ∧ d.dflt = .none ∧
      d.type = .tuple := by decide +kernel

/-- **C53** the pole-dependent numbers and cold trap names the user omits are those listed for
the pole. -/
theorem C53_pole_defaults (env : Env) (kw : List (String × PyVal)) (c : CfgVals)
    (h : makeCfg env kw = .ok c) (hnd : (kw.map (·.1)).Nodup) :
    (c "pole" = .str "s".toList →
      (∀ q ∈ southValues, Omitted kw q.1 → c q.1 = .float q.2) ∧
      (Omitted kw "coldtrap_names" → c "coldtrap_names" =
        .tuple (southNames.map (fun x => .str x.toList)))) ∧
    (c "pole" = .str "n".toList →
      (∀ q ∈ northValues, Omitted kw q.1 → c q.1 = .float q.2) ∧
      (Omitted kw "coldtrap_names" → c "coldtrap_names" =
        .tuple (northNames.map (fun x => .str x.toList)))) := by
  obtain ⟨c0, c4, c5, n, md, pd, out, st⟩ := makeCfg_steps h
  obtain ⟨m, -, -, hm3⟩ := st.mode_eq
  obtain ⟨s, e1, e2, e3⟩ := st.pole_eq
  obtain ⟨hq, hnm⟩ := pole_table _ e3
  have hndp := tables_nodup _ (List.mem_append_right _ e3)
  simp only [] at hq hnm hndp
  have key : ∀ q ∈ (if s = "s".toList then southValues else northValues), Omitted kw q.1 →
      c q.1 = .float q.2 := by
    intro q hqm ho
    obtain ⟨h1, h2, d, hd, g1, g2, g3, g4⟩ := hq q hqm
    have h0 : c0 q.1 = .none := g1 ▸ init_omitted st.init hnd hd g3 (by rw [g1]; exact ho)
    have h0' : fillNone c0 md q.1 = .none := by
      rw [fillNone_not_mem _ _ _ (h2 _ hm3), h0]
    have hc := st.plain hd g2
    rcases h1 with h1 | ⟨h1, hz⟩
    · rw [g1, fillNone_mem pd _ _ _ hndp h1 h0', enforceOne_id (by rw [g4]; constructor)] at hc
      cases hcp : c q.1 <;> rw [hcp] at hc <;> cases hc
      rfl
    · rw [g1, fillNone_mem pd _ _ _ hndp h1 h0'] at hc
      have e0 : enforceOne env d (.int 0) = .ok (.float 0) := by
        unfold enforceOne
        rw [g4, if_neg (by decide)]
        have h1 : castTo env .float (.int 0) = pyFloat env (.int 0) := rfl
        rw [h1, pyFloat_int, Int.natAbs_zero, if_pos (Nat.two_pow_pos 1024)]
        simp
      rw [e0] at hc
      cases hcp : c q.1 <;> rw [hcp] at hc <;> cases hc
      rw [hz]
  have key2 : Omitted kw "coldtrap_names" → c "coldtrap_names" =
      .tuple ((if s = "s".toList then southNames else northNames).map (fun x => .str x.toList)) := by
    intro ho
    obtain ⟨h2, d, hd, g1, g2, g3, g4⟩ := names_table
    have h0 : c0 "coldtrap_names" = .none := g1 ▸ init_omitted st.init hnd hd g3 (by rw [g1]; exact ho)
    have h0' : fillNone c0 md "coldtrap_names" = .none := by
      rw [fillNone_not_mem _ _ _ (h2 _ hm3), h0]
    have hc := st.plain hd g2
    rw [g1, fillNone_mem pd _ _ _ hndp hnm h0', enforceOne_id (by rw [g4]; constructor)] at hc
    cases hcp : c "coldtrap_names" <;> rw [hcp] at hc <;> cases hc
    rfl
  rw [e1]
  constructor
  · intro h; cases h
    exact ⟨by simpa using key, by simpa using key2⟩
  · intro h; cases h
    exact ⟨by simpa using key, by simpa using key2⟩

/-- **C53** the mean impact speed never takes the mode's value: omitted, it is 20 km/s in both
modes. -/
theorem C53_impact_speed (env : Env) (kw : List (String × PyVal)) (c : CfgVals)
    (h : makeCfg env kw = .ok c) (ho : "impact_speed_mean" ∉ kw.map (·.1)) :
    c "impact_speed_mean" = .float 20000 := by
  obtain ⟨c0, c4, c5, n, md, pd, out, st⟩ := makeCfg_steps h
  have : ∃ d ∈ cfgFields, d.name = "impact_speed_mean" ∧ isPlain d.name = true ∧
    d.dflt = .float 20000 ∧ d.type = .float := by decide +kernel
  obtain ⟨d, hd, h1, h2, h3, h4⟩ := this
  have h0 : c0 "impact_speed_mean" = .float 20000 := by
    have := (initFields_ok st.init).2.2 d hd (by rw [h1]; exact ho)
    rw [h1, h3] at this
    exact this
  have e1 : fillNone c0 md "impact_speed_mean" = .float 20000 := by
    rw [fillNone_of_ne_none _ _ _ (by rw [h0]; exact (fun h => by cases h)), h0]
  have hc := st.plain hd h2
  rw [h1, fillNone_of_ne_none _ _ _ (by rw [e1]; exact (fun h => by cases h)), e1,
    enforceOne_id (by rw [h4]; constructor)] at hc
  cases hcp : c "impact_speed_mean" <;> rw [hcp] at hc <;> cases hc
  rfl

/-- A world with a data package, an empty file system and only decimal digits numeric. -/
def env0 : Env where
  date := "240101".toList
  time := "12:00:00".toList
  draw := 777
  cwd := "/home/u".toList
  dataDir := "/pkg/data".toList
  pathExists := fun s => s == "/pkg/data/".toList
  userHome := fun _ => none
  isNumeric := fun c => c.isDigit
  parseInt := fun s => if s = "42".toList then some 42 else none
  parseFloat := fun _ => none
  strOf := fun _ => "?".toList
  dictOf := fun _ => .error .typeError

/-- **C53** does not hold for the mean impact speed: in `moonpies` mode the table lists 17 km/s but
the run uses 20 km/s. -/
theorem C53_impact_speed_refuted :
    ∃ env c, makeCfg env [] = .ok c ∧ c "mode" = .str "moonpies".toList ∧
      ("impact_speed_mean", PyVal.float 17000) ∈ modeMoonpies ∧
      c "impact_speed_mean" ≠ .float 17000 := by
  have : ∃ c, makeCfg env0 [] = .ok c := by
    cases h : makeCfg env0 [] with
    | ok c => exact ⟨c, rfl⟩
    | error e =>
      exfalso
      have : (makeCfg env0 []).isOk = true := by decide +kernel
      rw [h] at this; cases this
  obtain ⟨c, hc⟩ := this
  refine ⟨env0, c, hc, (C53_mode_pole env0 [] c hc (by simp)).2.2.2.2.1 (by simp), by simp [modeMoonpies], ?_⟩
  rw [C53_impact_speed env0 [] c hc (by simp)]
  decide +kernel

/-- A `cannon` run at the north pole with one switch turned back on. -/
example : (makeCfg env0 [("mode", .str "cannon".toList), ("ballistic_sed", .bool true),
    ("pole", .str "n".toList)]).map (fun c => (c "ballistic_sed", c "solar_wind_ice",
      c "coldtrap_area_CO2", c "out_path")) =
    .ok (.bool true, .bool false, .float 0, .str "/home/u/out/240101/moonpies/00777".toList) := by
  decide +kernel

/-! ## C54 -/

/-- **C54** after construction every field holds an instance of its declared type. -/
theorem C54_types (env : Env) (kw : List (String × PyVal)) (c : CfgVals)
    (h : makeCfg env kw = .ok c) : ∀ d ∈ cfgFields, HasType d.type (c d.name) := by
  intro d hd
  obtain ⟨c0, c4, c5, n, md, pd, out, st⟩ := makeCfg_steps h
  exact enforceOne_hasType (st.types d hd)

/-- **C54** a value of the right type is stored unchanged (seed, clock and file locations are
recomputed). -/
theorem C54_unchanged (env : Env) (kw : List (String × PyVal)) (c : CfgVals)
    (h : makeCfg env kw = .ok c) (hnd : (kw.map (·.1)).Nodup) (d : FieldDecl) (hd : d ∈ cfgFields)
    (hr : ¬ Recomputed d.name) (v : PyVal) (hv : (d.name, v) ∈ kw) (ht : HasType d.type v) :
    c d.name = v := by
  have := given_field h hnd hd hr hv (by rintro rfl; generalize d.type = ty at ht; cases ht)
  rw [enforceOne_id ht] at this
  cases this; rfl

/-- **C54** a value that cannot be converted to the declared type does not construct. -/
theorem C54_rejected (env : Env) (kw : List (String × PyVal)) (hnd : (kw.map (·.1)).Nodup)
    (d : FieldDecl) (hd : d ∈ cfgFields) (hr : ¬ Recomputed d.name) (v : PyVal)
    (hv : (d.name, v) ∈ kw) (hne : v ≠ .none) (ht : ¬ HasType d.type v) (e : PyErr)
    (he : castTo env d.type v = .error e) : ∀ c, makeCfg env kw ≠ .ok c := by
  intro c h
  have := given_field h hnd hd hr hv hne
  unfold enforceOne at this
  rw [if_neg (by rw [isInstance_iff]; exact ht), he] at this
  cases this

/-- **C54** `None` for a field without a mode or pole default is refused for the number and
tuple types (the conversion raises). -/
theorem C54_none_rejected (env : Env) (kw : List (String × PyVal)) (hnd : (kw.map (·.1)).Nodup)
    (d : FieldDecl) (hd : d ∈ cfgFields) (hr : ¬ Recomputed d.name) (hv : (d.name, .none) ∈ kw)
    (hopt : d.name ∉ Spec.options.map (·.1))
    (ht : d.type = .int ∨ d.type = .float ∨ d.type = .tuple) : ∀ c, makeCfg env kw ≠ .ok c := by
  intro c h
  obtain ⟨c0, c4, c5, n, md, pd, out, st⟩ := makeCfg_steps h
  have h0 := (initFields_ok st.init).2.1 _ _ hnd hv
  have hmem : ∀ e ∈ modeDict ++ poleDict, ∀ p ∈ e.2.map (·.1), p ∈ Spec.options.map (·.1) := by
    decide +kernel
  obtain ⟨s, -, -, hm⟩ := st.mode_eq
  obtain ⟨s', -, -, hp⟩ := st.pole_eq
  have h1 : fillNone (fillNone c0 md) pd d.name = .none := by
    rw [fillNone_not_mem _ _ _ (fun hx => hopt (hmem _ (List.mem_append_right _ hp) _ hx)),
      fillNone_not_mem _ _ _ (fun hx => hopt (hmem _ (List.mem_append_left _ hm) _ hx)), h0]
  have hc := st.plain hd ((isPlain_iff _).2 hr)
  rw [h1] at hc
  unfold enforceOne castTo at hc
  rcases ht with ht | ht | ht <;> rw [ht] at hc <;> cases hc

/-- **C54** an argument that is not a field is refused. -/
theorem C54_unknown (env : Env) (kw : List (String × PyVal)) (k : String) (v : PyVal)
    (hk : (k, v) ∈ kw) (hno : ∀ d ∈ cfgFields, d.name ≠ k) : makeCfg env kw = .error .typeError := by
  have : initFields kw = .error .typeError := by
    unfold initFields
    rw [if_neg]
    intro hall
    have := List.all_eq_true.1 hall _ hk
    obtain ⟨d, hd, he⟩ := List.any_eq_true.1 this
    exact hno d hd (by simpa using he)
  unfold makeCfg
  simp only [bind, Except.bind]
  rw [this]

/-- **C54** conversions lose information silently: any non-empty string given for a switch
turns it on, also `'False'`. -/
theorem C54_string_switch (env : Env) (kw : List (String × PyVal)) (c : CfgVals)
    (h : makeCfg env kw = .ok c) (hnd : (kw.map (·.1)).Nodup) (p : String) (hp : p ∈ modeSwitches)
    (s : Str) (hs : s ≠ []) (hv : (p, .str s) ∈ kw) : c p = .bool true := by
  have hopt : ∀ p ∈ modeSwitches, (p, PyType.bool) ∈ Spec.options := by decide +kernel
  have := (C53_explicit env kw c h hnd p .bool (hopt p hp) _ hv (fun h => by cases h)).2
    (fun h => by cases h)
  unfold castTo pyBool at this
  simp only [Except.ok.injEq] at this
  rw [← this]
  simp [hs]

/-- An unset grid step (`'1e3'` is not an integer literal) and an unknown keyword. -/
example : (makeCfg env0 [("grdstep", .str "1e3".toList)]).isOk = false ∧
    (makeCfg env0 [("rtol", .float 1)]).isOk = false ∧
    (makeCfg env0 [("grdstep", .float (5 / 2)), ("plot", .str "False".toList)]).map
      (fun c => (c "grdstep", c "plot")) = .ok (.int 2, .bool true) := by
  refine ⟨?_, ?_, ?_⟩ <;> decide +kernel

/-! ## C55 -/

theorem seed_value {env : Env} {kw : List (String × PyVal)} {c : CfgVals}
    (h : makeCfg env kw = .ok c) :
    ∃ c0 n, initFields kw = .ok c0 ∧ getRandomSeed env (c0 "seed") = .ok n ∧ c "seed" = .int n := by
  obtain ⟨c0, c4, c5, n, md, pd, out, st⟩ := makeCfg_steps h
  obtain ⟨d, hd, h1, h2, h3⟩ := decl_seed
  refine ⟨c0, n, st.init, st.seed, ?_⟩
  have ha := st.abs d hd
  have ht := st.types d hd
  rw [h1, st.c4_seed] at ha
  cases ha' : c5 "seed" <;> rw [ha'] at ha <;> cases ha
  rw [h1, ha', enforceOne_id (by rw [h2]; constructor)] at ht
  cases hc : c "seed" <;> rw [hc] at ht <;> cases ht
  rfl

theorem truncRat_spec (q : ℚ) (n : Int) (h1 : |(n : ℚ)| ≤ |q|) (h2 : |q| < |(n : ℚ)| + 1)
    (h3 : 0 ≤ q * n) : truncRat q = n := by
  unfold truncRat
  rcases lt_trichotomy q 0 with hq | hq | hq
  · rw [if_neg (not_le.2 hq)]
    have hn : (n : ℚ) ≤ 0 := by
      by_contra hc
      have := mul_neg_of_neg_of_pos hq (not_le.1 hc)
      linarith
    rw [abs_of_neg hq, abs_of_nonpos hn] at h1 h2
    rw [Int.ceil_eq_iff]
    constructor <;> linarith
  · subst hq
    simp only [abs_zero] at h1
    have : (n : ℚ) = 0 := abs_eq_zero.1 (le_antisymm h1 (abs_nonneg _))
    have : n = 0 := by exact_mod_cast this
    subst this
    simp
  · rw [if_pos hq.le]
    have hn : 0 ≤ (n : ℚ) := by
      by_contra hc
      have := mul_neg_of_pos_of_neg hq (not_le.1 hc)
      linarith
    rw [abs_of_pos hq, abs_of_nonneg hn] at h1 h2
    rw [Int.floor_eq_iff]
    exact ⟨h1, h2⟩

theorem pyInt_seed {env : Env} {v : PyVal} {n : Int} (h : SeedInt env v n) : pyIntOf env v = .ok n := by
  cases h with
  | int n => rfl
  | true => rfl
  | false => rfl
  | float q n h1 h2 h3 => show Except.ok (truncRat q) = _; rw [truncRat_spec q n h1 h2 h3]
  | str s n h => unfold pyIntOf; simp only [h]

/-- **C55** a seed that reads as a non-zero integer is kept. -/
theorem C55_kept (env : Env) (kw : List (String × PyVal)) (c : CfgVals)
    (h : makeCfg env kw = .ok c) (hnd : (kw.map (·.1)).Nodup) (v : PyVal) (hv : ("seed", v) ∈ kw)
    (n : Int) (hn : SeedInt env v n) (h0 : n ≠ 0) : c "seed" = .int n := by
  obtain ⟨c0, m, hi, hs, hc⟩ := seed_value h
  rw [(initFields_ok hi).2.1 _ _ hnd hv] at hs
  unfold getRandomSeed at hs
  rw [pyInt_seed hn] at hs
  simp only [if_neg h0, Except.ok.injEq] at hs
  rw [hc, hs]

/-- **C55** otherwise (omitted, zero, or not a number) the drawn seed is used. -/
theorem C55_drawn (env : Env) (kw : List (String × PyVal)) (c : CfgVals)
    (h : makeCfg env kw = .ok c) (hnd : (kw.map (·.1)).Nodup)
    (hv : "seed" ∉ kw.map (·.1) ∨ ∃ v, ("seed", v) ∈ kw ∧ (SeedInt env v 0 ∨ NotInt env v)) :
    c "seed" = .int env.draw := by
  obtain ⟨c0, m, hi, hs, hc⟩ := seed_value h
  have hz : ∀ v, SeedInt env v 0 ∨ NotInt env v → getRandomSeed env v = .ok env.draw := by
    intro v hv
    unfold getRandomSeed
    rcases hv with hv | hv
    · rw [pyInt_seed hv]; rfl
    · cases hv with
      | str s h =>
        have : pyIntOf env (.str s) = .error .valueError := by unfold pyIntOf; simp only [h]
        rw [this]
      | _ => rfl
  rw [hc]
  rcases hv with hv | ⟨v, hv, hk⟩
  · obtain ⟨d, hd, h1, h2, h3⟩ := decl_seed
    have := (initFields_ok hi).2.2 d hd (by rw [h1]; exact hv)
    rw [h1, h3] at this
    rw [this, hz _ (Or.inl (.int 0))] at hs
    cases hs; rfl
  · rw [(initFields_ok hi).2.1 _ _ hnd hv, hz _ hk] at hs
    cases hs; rfl

/-- **C55** the seed is never 0 (the draw is from 1 to 99998), so building the configuration
again from its values keeps the seed, whatever is drawn then. -/
theorem C55_nonzero (env : Env) (kw : List (String × PyVal)) (c : CfgVals)
    (h : makeCfg env kw = .ok c) (hdraw : 1 ≤ env.draw ∧ env.draw ≤ 99998) :
    ∃ n, c "seed" = .int n ∧ n ≠ 0 ∧
      ∀ env' c', fromDict env' (toDict c) = .ok c' → c' "seed" = .int n := by
  obtain ⟨c0, n, hi, hs, hc⟩ := seed_value h
  have hn : n ≠ 0 := by
    unfold getRandomSeed at hs
    split at hs
    · rename_i m hm
      cases hs
      split
      · omega
      · assumption
    · cases hs; omega
    · cases hs; omega
    · cases hs
  refine ⟨n, hc, hn, ?_⟩
  intro env' c' h'
  have hnd : ((toDict c).map (·.1)).Nodup := by
    have : (toDict c).map (·.1) = cfgFields.map (·.name) := by
      unfold toDict; rw [List.map_map]; rfl
    rw [this]; exact cfgNames_nodup
  refine C55_kept env' _ c' h' hnd (.int n) ?_ n (.int n) hn
  obtain ⟨d, hd, h1, -⟩ := decl_seed
  exact List.mem_map.2 ⟨d, hd, by rw [h1, hc]⟩

/-- **C55** an infinite seed is not caught. -/
theorem C55_infinite (env : Env) (kw : List (String × PyVal)) (hnd : (kw.map (·.1)).Nodup) (b : Bool)
    (hv : ("seed", .inf b) ∈ kw) : ∀ c, makeCfg env kw ≠ .ok c := by
  intro c h
  obtain ⟨c0, m, hi, hs, hc⟩ := seed_value h
  rw [(initFields_ok hi).2.1 _ _ hnd hv] at hs
  cases hs

example : (makeCfg env0 [("seed", .str "42".toList)]).map (fun c => c "seed") = .ok (.int 42) ∧
    (makeCfg env0 [("seed", .float (-7 / 2))]).map (fun c => c "seed") = .ok (.int (-3)) ∧
    (makeCfg env0 [("seed", .str "x".toList)]).map (fun c => c "seed") = .ok (.int 777) := by
  refine ⟨?_, ?_, ?_⟩ <;> decide +kernel

end MoonPIES
