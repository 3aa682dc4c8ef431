import Verif.Lemmas.SeedSpec
import Verif.Props.ConfigRound
import Mathlib.Data.List.TakeWhile

/-!
# C56, C57, C58: file locations of a run, the comet configuration
-/

namespace MoonPIES

open Spec

/-- The path given as `out_path` causes no confusion: it is empty, does not contain the seed's
five digits, or has them as its last component. -/
def Spec.PlainOut (n : Int) (out : Str) : Prop :=
  out = [] ∨ ∀ t, SeedText n t → ¬ t <:+: out ∨ EndsIn out t

theorem plainOut_cases {n : Int} {out : Str} (h : PlainOut n out) :
    out = [] ∨ ¬ fmtSeed n <:+: out ∨ EndsIn out (fmtSeed n) :=
  h.imp_right (fun h => h _ (seedText_fmt n))

theorem plainOut_of {n : Int} {out : Str} (h : ¬ fmtSeed n <:+: out ∨ EndsIn out (fmtSeed n)) :
    PlainOut n out := by
  refine Or.inr (fun t ht => ?_)
  rw [seedText_iff.1 ht]; exact h

theorem outPath_ends (env : Env) (n : Int) (out r : Str) (h : PlainOut n out) :
    EndsIn (outPathStr env out (fmtSeed n) r) (fmtSeed n) := by
  unfold outPathStr
  by_cases h0 : out = []
  · rw [if_pos h0]; exact endsIn_join (fmtSeed_ordinary n)
  · rw [if_neg h0]
    by_cases h1 : fmtSeed n <:+: out
    · rw [if_pos h1]
      rcases plainOut_cases h with h | h | h
      · exact absurd h h0
      · exact absurd h1 h
      · exact endsIn_slash h
    · rw [if_neg h1]; exact endsIn_join (fmtSeed_ordinary n)

/-- The value of `out_path` before the other steps. -/
theorem Steps.out_str {env : Env} {kw : List (String × PyVal)} {c c0 c4 c5 : CfgVals} {n : Int}
    {md pd : List (String × PyVal)} {out : Str} (h : Steps env kw c c0 c4 c5 n md pd out) :
    ∃ s r, c0 "out_path" = .str s ∧ out = outPathStr env s (fmtSeed n) r := by
  have := h.outp
  unfold getOutPath at this
  cases ho : c0 "out_path" with
  | str s =>
    rw [ho] at this
    cases hr : c0 "run_name" with
    | str r => rw [hr] at this; cases this; exact ⟨s, r, rfl, rfl⟩
    | _ =>
      rw [hr] at this
      simp only [] at this
      split at this
      · cases this
      · cases this; exact ⟨s, [], rfl, rfl⟩
  | _ => rw [ho] at this; cases this

theorem mem_six {f : String} (hf : f ∈ ["data_path", "out_path", "figs_path"]) :
    f ∈ ["run_name", "data_path", "out_path", "figs_path", "run_date", "run_time"] := by
  simp at hf ⊢; tauto

theorem mem_three {f : String} (hf : f ∈ ["data_path", "figs_path"]) :
    f ∈ ["data_path", "out_path", "figs_path"] := by
  simp at hf ⊢; tauto

theorem mem_two {f : String} (hf : f ∈ ["data_path", "out_path", "figs_path"]) (h : f ≠ "out_path") :
    f ∈ ["data_path", "figs_path"] := by
  simp at hf ⊢; tauto

theorem suffix_paths : ∀ f ∈ ["data_path", "out_path", "figs_path"],
    "_in".toList.isSuffixOf f.toList = false ∧ "_out".toList.isSuffixOf f.toList = false ∧
      "_path".toList.isSuffixOf f.toList = true := by decide +kernel

/-- A field ending with `_path`: kept if it exists, else made absolute. -/
theorem Steps.path_value {env : Env} {kw : List (String × PyVal)} {c c0 c4 c5 : CfgVals} {n : Int}
    {md pd : List (String × PyVal)} {out : Str} (h : Steps env kw c c0 c4 c5 n md pd out)
    {f : String} (hf : f ∈ ["data_path", "out_path", "figs_path"]) {s : Str} (hs : c4 f = .str s) :
    c f = .str (if env.pathExists s then s else absPath env.cwd (expandUser env.userHome s)) := by
  obtain ⟨d, hd, h1, h2⟩ := str_fields f (mem_six hf)
  obtain ⟨k1, k2, k3⟩ := suffix_paths f hf
  have ha := h.abs d hd
  have ht := h.types d hd
  rw [h1] at ha ht
  rw [hs] at ha
  unfold absField at ha
  simp only [] at ha
  rw [k1, k2, k3] at ha
  simp only [Bool.false_eq_true, if_false, if_true, Except.ok.injEq] at ha
  rw [← ha] at ht
  rw [enforceOne_id (by rw [h2]; exact .str _), Except.ok.injEq] at ht
  exact ht.symm

/-- The seed and the output path of a finished configuration. -/
theorem out_value {env : Env} {kw : List (String × PyVal)} {c : CfgVals}
    (h : makeCfg env kw = .ok c) (hcwd : env.cwd.head? = some '/') :
    ∃ n s, c "seed" = .int n ∧ (∀ c0, initFields kw = .ok c0 → c0 "out_path" = .str s) ∧
      (PlainOut n s → ∃ q, c "out_path" = .str q ∧ EndsIn q (fmtSeed n)) := by
  obtain ⟨c0, c4, c5, n, md, pd, out, st⟩ := makeCfg_steps h
  obtain ⟨c0', n', hi, hs, hc⟩ := seed_value h
  rw [st.init] at hi
  cases hi
  rw [st.seed] at hs
  cases hs
  obtain ⟨s, r, h1, h2⟩ := st.out_str
  refine ⟨n, s, hc, ?_, ?_⟩
  · intro c0' hi'
    rw [st.init] at hi'
    cases hi'
    exact h1
  · intro hp
    refine ⟨_, st.path_value (by simp) st.c4_out, ?_⟩
    have he := outPath_ends env n s r hp
    rw [← h2] at he
    split
    · exact he
    · obtain ⟨pre, hpre, e⟩ := abs_endsIn hcwd env.userHome (fmtSeed_ordinary n) (fmtSeed_tilde n) he
      exact ⟨pre, 0, hpre, by rw [e]; simp⟩

/-- The output path of a configuration ends in the text of its seed. -/
theorem out_ends {env : Env} {kw : List (String × PyVal)} {c : CfgVals} {n : Int}
    (h : makeCfg env kw = .ok c) (hcwd : env.cwd.head? = some '/') (hnd : (kw.map (·.1)).Nodup)
    (hs : c "seed" = .int n) (hp : ∀ s, ("out_path", .str s) ∈ kw → PlainOut n s) :
    ∃ q, c "out_path" = .str q ∧ EndsIn q (fmtSeed n) := by
  obtain ⟨m, s, h1, h2, h3⟩ := out_value h hcwd
  rw [hs] at h1
  cases h1
  apply h3
  obtain ⟨c0, c4, c5, n', md, pd, out, st⟩ := makeCfg_steps h
  have e := h2 c0 st.init
  by_cases hm : "out_path" ∈ kw.map (·.1)
  · obtain ⟨⟨f, v⟩, hkv, rfl⟩ := List.mem_map.1 hm
    rw [(initFields_ok st.init).2.1 _ _ hnd hkv] at e
    cases e
    exact hp _ hkv
  · have hd : ∃ d ∈ cfgFields, d.name = "out_path" ∧ d.dflt = .str [] := by decide +kernel
    obtain ⟨d, hd, d1, d2⟩ := hd
    have := (initFields_ok st.init).2.2 d hd (by rw [d1]; exact hm)
    rw [d1, d2, e] at this
    cases this
    exact Or.inl rfl

/-- **C57** the last directory of the output path is named after the seed: its decimal digits,
padded with zeros to five characters. -/
theorem C57_seed_dir (env : Env) (kw : List (String × PyVal)) (c : CfgVals)
    (h : makeCfg env kw = .ok c) (hcwd : env.cwd.head? = some '/') (hnd : (kw.map (·.1)).Nodup)
    (n : Int) (hs : c "seed" = .int n) (hp : ∀ s, ("out_path", .str s) ∈ kw → PlainOut n s) :
    ∃ q t, c "out_path" = .str q ∧ SeedText n t ∧ EndsIn q t := by
  obtain ⟨q, h1, h2⟩ := out_ends h hcwd hnd hs hp
  exact ⟨q, _, h1, seedText_fmt n, h2⟩

example : SeedText 7 "00007".toList ∧ SeedText (-7) "-0007".toList ∧ SeedText 123456 "123456".toList ∧
    ¬ SeedText 7 "7".toList ∧ ¬ SeedText 7 "0007".toList := by
  refine ⟨seedText_iff.2 ?_, seedText_iff.2 ?_, seedText_iff.2 ?_, fun h => ?_, fun h => ?_⟩
  · decide +kernel
  · decide +kernel
  · decide +kernel
  · exact absurd (seedText_iff.1 h) (by decide +kernel)
  · exact absurd (seedText_iff.1 h) (by decide +kernel)

/-- **C57** (partial) two configurations with different seeds have different output paths,
provided the text of each seed is not hidden elsewhere in the path it is given.  The two may be
built on different days and from different values.  Missing: paths that contain the digits of
the seed in another place, see `C57_refuted`. -/
theorem C57_distinct_partial (env env' : Env) (kw kw' : List (String × PyVal)) (c c' : CfgVals)
    (h : makeCfg env kw = .ok c) (h' : makeCfg env' kw' = .ok c')
    (hcwd : env.cwd.head? = some '/') (hcwd' : env'.cwd.head? = some '/')
    (hnd : (kw.map (·.1)).Nodup) (hnd' : (kw'.map (·.1)).Nodup)
    (n n' : Int) (hs : c "seed" = .int n) (hs' : c' "seed" = .int n') (hne : n ≠ n')
    (hp : ∀ s, ("out_path", .str s) ∈ kw → PlainOut n s)
    (hp' : ∀ s, ("out_path", .str s) ∈ kw' → PlainOut n' s) :
    c "out_path" ≠ c' "out_path" := by
  obtain ⟨q, hq, he⟩ := out_ends h hcwd hnd hs hp
  obtain ⟨q', hq', he'⟩ := out_ends h' hcwd' hnd' hs' hp'
  rw [hq, hq']
  intro e
  cases e
  have o := fmtSeed_ordinary n
  have o' := fmtSeed_ordinary n'
  exact hne (fmtSeed_inj (endsIn_unique o.1 o.2.2.2 o'.1 o'.2.2.2 he he'))

/-- **C57** does not hold for every path: one whose name contains the digits of both seeds is
used as it is by both runs. -/
theorem C57_refuted : ∃ (env : Env) (s : Str) (c c' : CfgVals),
    makeCfg env [("out_path", .str s), ("seed", .int 1)] = .ok c ∧
    makeCfg env [("out_path", .str s), ("seed", .int 2)] = .ok c' ∧
    c "seed" ≠ c' "seed" ∧ c "out_path" = c' "out_path" := by
  have h : ∀ n : Int, n = 1 ∨ n = 2 →
      (makeCfg env0 [("out_path", .str "runs/0000100002".toList), ("seed", .int n)]).map
      (fun c => (c "seed", c "out_path")) = .ok (.int n, .str "/home/u/runs/0000100002".toList) := by
    rintro n (rfl | rfl) <;> decide +kernel
  have h1 := h 1 (Or.inl rfl)
  have h2 := h 2 (Or.inr rfl)
  cases e1 : makeCfg env0 [("out_path", .str "runs/0000100002".toList), ("seed", .int 1)] with
  | error e => rw [e1] at h1; cases h1
  | ok c =>
    cases e2 : makeCfg env0 [("out_path", .str "runs/0000100002".toList), ("seed", .int 2)] with
    | error e => rw [e2] at h2; cases h2
    | ok c' =>
      rw [e1] at h1; rw [e2] at h2
      simp only [Except.map, Except.ok.injEq, Prod.mk.injEq] at h1 h2
      refine ⟨env0, _, c, c', e1, e2, ?_, ?_⟩
      · rw [h1.1, h2.1]; decide
      · rw [h1.2, h2.2]

example : PlainOut 5 "runs/00007/".toList ∧ PlainOut 7 "runs/00007/".toList ∧ env0.cwd.head? = some '/' ∧
    (makeCfg env0 [("out_path", .str "runs/00007/".toList), ("seed", .int 5)]).map (fun c => c "out_path") =
      .ok (.str "/home/u/runs/00005".toList) ∧
    (makeCfg env0 [("out_path", .str "runs/00007/".toList), ("seed", .int 7)]).map (fun c => c "out_path") =
      .ok (.str "/home/u/runs/00007".toList) := by
  refine ⟨plainOut_of (Or.inl (by decide +kernel)), plainOut_of (Or.inr ⟨"runs/".toList, 1, Or.inr rfl, by decide +kernel⟩), rfl, ?_, ?_⟩ <;>
    decide +kernel

/-! ## C56: locations after reading a configuration back -/

/-- Fields that hold a file location. -/
def Spec.PathField (f : String) : Prop :=
  "_in".toList <:+ f.toList ∨ "_out".toList <:+ f.toList ∨ "_path".toList <:+ f.toList

theorem path_decl : ∀ d ∈ cfgFields, ("_in".toList.isSuffixOf d.name.toList ||
    "_out".toList.isSuffixOf d.name.toList || "_path".toList.isSuffixOf d.name.toList) = true →
    d.type = .str ∧ ∃ s, d.dflt = .str s ∧
      (d.name ∈ ["data_path", "out_path", "figs_path"] ∨ (d.name ∉ ["seed", "run_date", "run_time", "data_path", "out_path", "figs_path"] ∧
        baseName s ≠ [] ∧ baseName s ≠ ['.'] ∧ baseName s ≠ ['.', '.'])) := by
  have h : ∀ d ∈ cfgFields, ("_in".toList.isSuffixOf d.name.toList ||
    "_out".toList.isSuffixOf d.name.toList || "_path".toList.isSuffixOf d.name.toList) = true →
    d.type = .str ∧ d.dflt = .str (strVal d.dflt) ∧
      (d.name ∈ ["data_path", "out_path", "figs_path"] ∨ (d.name ∉ ["seed", "run_date", "run_time", "data_path", "out_path", "figs_path"] ∧
        baseName (strVal d.dflt) ≠ [] ∧ baseName (strVal d.dflt) ≠ ['.'] ∧
        baseName (strVal d.dflt) ≠ ['.', '.'])) := by decide +kernel
  intro d hd hs
  obtain ⟨h1, h2, h3⟩ := h d hd hs
  exact ⟨h1, _, h2, h3⟩

theorem baseName_noSlash (s : Str) : '/' ∉ baseName s := by
  unfold baseName
  intro h
  have := List.mem_takeWhile_imp (List.mem_reverse.1 h)
  simp at this

/-- The absolute location of a file `b` in the directory `x`. -/
def fileIn (env : Env) (x b : Str) : Str := absPath env.cwd (expandUser env.userHome (pathJoin x b))

/-- A field ending with `_in` or `_out`. -/
theorem Steps.file_value {env : Env} {kw : List (String × PyVal)} {c c0 c4 c5 : CfgVals} {n : Int}
    {md pd : List (String × PyVal)} {out : Str} (h : Steps env kw c c0 c4 c5 n md pd out)
    {d : FieldDecl} (hd : d ∈ cfgFields)
    (hn : d.name ∉ ["seed", "run_date", "run_time", "data_path", "out_path", "figs_path"])
    (hty : d.type = .str) {s : Str} (hs : c0 d.name = .str s) :
    ("_in".toList.isSuffixOf d.name.toList = true → ∀ dp, c4 "data_path" = .str dp →
      c d.name = .str (if env.pathExists s then s else fileIn env dp (baseName s))) ∧
    ("_in".toList.isSuffixOf d.name.toList = false → "_out".toList.isSuffixOf d.name.toList = true →
      c d.name = .str (if env.pathExists s then s else fileIn env out (baseName s))) := by
  simp only [List.mem_cons, List.not_mem_nil, or_false, not_or] at hn
  obtain ⟨n1, n2, n3, n4, n5, n6⟩ := hn
  have h4 : c4 d.name = .str s := by
    rw [h.c4_rest _ n1 n2 n3 n4 n5 n6]
    have e1 : fillNone c0 md d.name = .str s := by
      rw [fillNone_of_ne_none _ _ _ (by rw [hs]; exact fun h => by cases h), hs]
    rw [fillNone_of_ne_none _ _ _ (by rw [e1]; exact fun h => by cases h), e1]
  have ha := h.abs d hd
  have ht := h.types d hd
  rw [h4] at ha
  unfold absField at ha
  simp only [] at ha
  constructor
  · intro k1 dp hdp
    rw [k1, hdp] at ha
    simp only [if_true, Except.ok.injEq] at ha
    rw [← ha, enforceOne_id (by rw [hty]; exact .str _), Except.ok.injEq] at ht
    exact ht.symm
  · intro k1 k2
    rw [k1, k2] at ha
    simp only [Bool.false_eq_true, if_false, if_true, Except.ok.injEq] at ha
    rw [← ha, enforceOne_id (by rw [hty]; exact .str _), Except.ok.injEq] at ht
    exact ht.symm

theorem isSuffixOf_false {a b : Str} (h : ¬ a <:+ b) : a.isSuffixOf b = false := by
  cases e : a.isSuffixOf b with
  | false => rfl
  | true => exact absurd (List.isSuffixOf_iff_suffix.1 e) h

theorem abs_ne_nil {cwd : Str} (hc : cwd.head? = some '/') (userHome : Str → Option Str) (x : Str) :
    absPath cwd (expandUser userHome x) ≠ [] := by
  intro e
  have := abs_head hc userHome x
  rw [e] at this; simp at this

theorem getLast?_ends {p s : Str} (h1 : s ≠ []) (h2 : '/' ∉ s) : (p ++ s).getLast? ≠ some '/' := by
  rw [getLast?_append_ne p h1]
  intro h
  exact h2 (List.mem_of_getLast? h)

/-- Rebuilding from values `u` with the locations and the seed of `c`. -/
theorem locations_core (env env' : Env) (kw : List (String × PyVal)) (c u : CfgVals)
    (h : makeCfg env kw = .ok c)
    (hnd : (kw.map (·.1)).Nodup)
    (hcwd : env.cwd.head? = some '/') (hcwd' : env'.cwd = env.cwd)
    (hhome : env'.userHome = env.userHome)
    (hkeep : ∀ s, env.pathExists s = true → env'.pathExists s = true)
    (hslash : ∀ s, env.pathExists (s ++ ['/']) = true → env'.pathExists (s ++ ['/'] ++ ['/']) = true)
    (hstr : ∀ f v, (f, v) ∈ kw → PathField f → ∃ s, v = .str s)
    (hord : ∀ f s, (f, .str s) ∈ kw → f ∉ ["data_path", "out_path", "figs_path"] → PathField f →
      baseName s ≠ [] ∧ baseName s ≠ ['.'] ∧ baseName s ≠ ['.', '.'])
    (hout : ∀ s n, ("out_path", .str s) ∈ kw → c "seed" = .int n → PlainOut n s)
    (hu : Valid u) (hagree : ∀ d ∈ cfgFields, PathField d.name ∨ d.name = "seed" → u d.name = c d.name) :
    ∃ c', makeCfg env' (toDict u) = .ok c' ∧
      (∀ d ∈ cfgFields, d.name ≠ "run_date" → d.name ≠ "run_time" → d.name ≠ "out_path" →
        c' d.name = u d.name) ∧
      ∃ q q', c "out_path" = .str q ∧ c' "out_path" = .str q' ∧ rstripSlash q' = rstripSlash q ∧
        (env'.pathExists (q ++ ['/']) = false → q' = q) := by
  obtain ⟨c', h', hplain, hseed⟩ := makeCfg_typed env' u hu
  have hus : u "seed" = c "seed" := by
    obtain ⟨d, hd, h1, -⟩ := decl_seed
    have := hagree d hd (Or.inr h1)
    rwa [h1] at this
  rw [hus] at hseed
  refine ⟨c', h', ?_⟩
  obtain ⟨c0, c4, c5, n, md, pd, out, st⟩ := makeCfg_steps h
  obtain ⟨c0', c4', c5', n', md', pd', out', st'⟩ := makeCfg_steps h'
  have hcseed : c "seed" = .int n := by
    obtain ⟨c0'', n'', hi, hs, hc⟩ := seed_value h
    rw [st.init] at hi; cases hi
    rw [st.seed] at hs; cases hs
    exact hc
  have hcseed' : c' "seed" = .int n' := by
    obtain ⟨c0'', n'', hi, hs, hc⟩ := seed_value h'
    rw [st'.init] at hi; cases hi
    rw [st'.seed] at hs; cases hs
    exact hc
  have hnn : n' = n := by
    rw [hcseed, hcseed'] at hseed
    cases hseed; rfl
  subst hnn
  -- the values before construction
  have hc0' : ∀ d ∈ cfgFields, PathField d.name → c0' d.name = c d.name := by
    obtain ⟨t, ht, ht'⟩ := initFields_toDict u
    have := st'.init
    rw [ht] at this
    cases this
    intro d hd hp
    rw [ht' d hd, hagree d hd (Or.inl hp)]
  have hc0 : ∀ d ∈ cfgFields, PathField d.name → ∃ s, c0 d.name = .str s ∧
      (d.name ∉ ["data_path", "out_path", "figs_path"] → Ordinary (baseName s)) := by
    intro d hd hp
    by_cases hm : d.name ∈ kw.map (·.1)
    · obtain ⟨⟨f, v⟩, hkv, hfe⟩ := List.mem_map.1 hm
      simp only at hfe
      subst hfe
      obtain ⟨s, rfl⟩ := hstr _ v hkv hp
      refine ⟨s, (initFields_ok st.init).2.1 _ _ hnd hkv, ?_⟩
      intro hne
      obtain ⟨o1, o2, o3⟩ := hord _ s hkv hne hp
      exact ⟨o1, o2, o3, baseName_noSlash s⟩
    · have hb : ("_in".toList.isSuffixOf d.name.toList ||
          "_out".toList.isSuffixOf d.name.toList || "_path".toList.isSuffixOf d.name.toList) = true := by
        simp only [Bool.or_eq_true, List.isSuffixOf_iff_suffix]
        rcases hp with hp | hp | hp
        · exact Or.inl (Or.inl hp)
        · exact Or.inl (Or.inr hp)
        · exact Or.inr hp
      obtain ⟨h1, s, h2, h3⟩ := path_decl d hd hb
      refine ⟨s, by rw [(initFields_ok st.init).2.2 d hd hm, h2], ?_⟩
      intro hne
      rcases h3 with h3 | ⟨-, o1, o2, o3⟩
      · exact absurd h3 hne
      · exact ⟨o1, o2, o3, baseName_noSlash s⟩
  -- the data path
  have hfield : ∀ f ∈ ["data_path", "out_path", "figs_path"], ∃ d ∈ cfgFields, d.name = f := by
    intro f hf
    obtain ⟨d, hd, h1, -⟩ := str_fields f (mem_six hf)
    exact ⟨d, hd, h1⟩
  have hpf : ∀ f ∈ ["data_path", "out_path", "figs_path"], PathField f := by
    intro f hf
    exact Or.inr (Or.inr (List.isSuffixOf_iff_suffix.1 (suffix_paths f hf).2.2))
  -- a `_path` field that is not the output path
  have hpath : ∀ f ∈ ["data_path", "figs_path"], ∃ p p0, c4 f = .str p0 ∧ p0 ≠ [] ∧ c f = .str p ∧
      (p = p0 ∨ p = absPath env.cwd (expandUser env.userHome p0)) ∧ c4' f = .str p ∧ c' f = .str p := by
    intro f hf
    have hf3 : f ∈ ["data_path", "out_path", "figs_path"] := mem_three hf
    obtain ⟨d, hd, hdn⟩ := hfield f hf3
    obtain ⟨s, hs, -⟩ := hc0 d hd (hdn ▸ hpf f hf3)
    rw [hdn] at hs
    obtain ⟨p0, hp0, hp0n⟩ : ∃ p0, c4 f = .str p0 ∧ p0 ≠ [] := by
      simp only [List.mem_cons, List.not_mem_nil, or_false] at hf
      rcases hf with rfl | rfl
      · rw [st.c4_data, hs]
        by_cases e : s = []
        · rw [if_neg (by simp [e])]; exact ⟨_, rfl, by simp⟩
        · rw [if_pos (by simp [e])]; exact ⟨_, rfl, e⟩
      · rw [st.c4_figs, hs]
        by_cases e : s = []
        · rw [if_neg (by simp [e])]; exact ⟨_, rfl, by simp⟩
        · rw [if_pos (by simp [e])]; exact ⟨_, rfl, e⟩
    have hcf := st.path_value hf3 hp0
    have hcase : c f = .str p0 ∧ env.pathExists p0 = true ∨
        c f = .str (absPath env.cwd (expandUser env.userHome p0)) := by
      by_cases e : env.pathExists p0 = true
      · rw [if_pos e] at hcf; exact Or.inl ⟨hcf, e⟩
      · rw [if_neg e] at hcf; exact Or.inr hcf
    have hc4' : ∀ p, c f = .str p → p ≠ [] → c4' f = .str p := by
      intro p hp hpn
      have e0 : c0' f = .str p := by
        have := hc0' d hd (hdn ▸ hpf f hf3)
        rw [hdn, hp] at this
        exact this
      simp only [List.mem_cons, List.not_mem_nil, or_false] at hf
      rcases hf with rfl | rfl
      · rw [st'.c4_data, e0, if_pos (by simp [hpn])]
      · rw [st'.c4_figs, e0, if_pos (by simp [hpn])]
    rcases hcase with ⟨e, hex⟩ | e
    · have h4 := hc4' _ e hp0n
      refine ⟨p0, p0, hp0, hp0n, e, Or.inl rfl, h4, ?_⟩
      rw [st'.path_value hf3 h4, if_pos (hkeep _ hex)]
    · have h4 := hc4' _ e (abs_ne_nil hcwd _ _)
      refine ⟨_, p0, hp0, hp0n, e, Or.inr rfl, h4, ?_⟩
      rw [st'.path_value hf3 h4]
      split
      · rfl
      · rw [hcwd', hhome, abs_idem hcwd]
  -- the output path
  obtain ⟨so, ro, ho1, ho2⟩ := st.out_str
  obtain ⟨so', ro', ho1', ho2'⟩ := st'.out_str
  have hplainOut : PlainOut n' so := by
    by_cases hm : "out_path" ∈ kw.map (·.1)
    · obtain ⟨⟨f, v⟩, hkv, rfl⟩ := List.mem_map.1 hm
      have e := (initFields_ok st.init).2.1 _ _ hnd hkv
      rw [e] at ho1
      cases ho1
      exact hout _ _ hkv hcseed
    · have hd : ∃ d ∈ cfgFields, d.name = "out_path" ∧ d.dflt = .str [] := by decide +kernel
      obtain ⟨d, hd, d1, d2⟩ := hd
      have := (initFields_ok st.init).2.2 d hd (by rw [d1]; exact hm)
      rw [d1, d2, ho1] at this
      cases this
      exact Or.inl rfl
  have hord0 := fmtSeed_ordinary n'
  have htil := fmtSeed_tilde n'
  have hE : EndsIn out (fmtSeed n') := ho2 ▸ outPath_ends env n' so ro hplainOut
  obtain ⟨q, hq⟩ : ∃ q, q = if env.pathExists out then out else absPath env.cwd (expandUser env.userHome out) :=
    ⟨_, rfl⟩
  have hcq : c "out_path" = .str q := by rw [hq]; exact st.path_value (by simp) st.c4_out
  have hEq : EndsIn q (fmtSeed n') := by
    rw [hq]
    split
    · exact hE
    · obtain ⟨pre, hpre, e⟩ := abs_endsIn hcwd env.userHome hord0 htil hE
      exact ⟨pre, 0, hpre, by rw [e]; simp⟩
  have hqne : q ≠ [] := by
    obtain ⟨pre, k, -, e⟩ := hEq
    rw [e]; simp [hord0.1]
  have hinf : fmtSeed n' <:+: q := by
    obtain ⟨pre, k, -, e⟩ := hEq
    exact ⟨pre, _, e.symm⟩
  have hso' : so' = q := by
    obtain ⟨d, hd, hdn⟩ := hfield "out_path" (by simp)
    have := hc0' d hd (hdn ▸ hpf _ (by simp))
    rw [hdn, hcq, ho1'] at this
    cases this; rfl
  have hout' : out' = q ++ ['/'] := by
    rw [ho2', hso']
    unfold outPathStr
    rw [if_neg hqne, if_pos hinf]
  -- `out` contains a slash
  have hslo : '/' ∈ out := by
    rw [ho2]
    unfold outPathStr
    simp
  have habsout : ∀ y, absPath env.cwd (expandUser env.userHome (out ++ '/' :: y)) =
      canon (initialSlashes (preAbs env.cwd env.userHome out))
        (normComps true [] (splitSlash (preAbs env.cwd env.userHome out) ++ splitSlash y)) :=
    abs_slash' hcwd env.userHome hord0 htil hE hslo
  have hcompsne : comps (preAbs env.cwd env.userHome out) ≠ [] := by
    intro e
    have h1 := abs_canon hcwd env.userHome out
    rw [e] at h1
    obtain ⟨pre, hpre, e2⟩ := abs_endsIn hcwd env.userHome hord0 htil hE
    rw [h1] at e2
    have : ∀ x ∈ fmtSeed n', x = '/' := by
      intro x hx
      have : x ∈ canon (initialSlashes (preAbs env.cwd env.userHome out)) [] := by
        rw [e2]; exact List.mem_append_right _ hx
      unfold canon joinSlash at this
      rw [List.append_nil] at this
      exact List.eq_of_mem_replicate this
    cases hfs : fmtSeed n' with
    | nil => exact hord0.1 hfs
    | cons a b =>
      rw [hfs] at this
      have ha := this a (by simp)
      exact hord0.2.2.2 (by rw [hfs, ha]; simp)
  have hcq' := st'.path_value (f := "out_path") (by simp) st'.c4_out
  refine ⟨?_, q, _, hcq, hcq', ?_, ?_⟩
  · intro d hd nd nt no
    by_cases hrec : Recomputed d.name
    · have hpf' : d.name = "seed" ∨ PathField d.name := by
        rcases hrec with h | h | h | h | h | h
        · exact Or.inl h
        · exact absurd h nd
        · exact absurd h nt
        · exact Or.inr (Or.inl h)
        · exact Or.inr (Or.inr (Or.inl h))
        · exact Or.inr (Or.inr (Or.inr h))
      rcases hpf' with hsd | hpfd
      · rw [hsd, hus, hcseed, hcseed']
      · rw [hagree d hd (Or.inl hpfd)]
        by_cases h3 : d.name ∈ ["data_path", "out_path", "figs_path"]
        · have : d.name ∈ ["data_path", "figs_path"] := mem_two h3 no
          obtain ⟨p, p0, -, -, hp, -, -, hp'⟩ := hpath _ this
          rw [hp, hp']
        · obtain ⟨s, hs, hso⟩ := hc0 d hd hpfd
          have hb := hso h3
          have hbool : ("_in".toList.isSuffixOf d.name.toList ||
              "_out".toList.isSuffixOf d.name.toList || "_path".toList.isSuffixOf d.name.toList) = true := by
            simp only [Bool.or_eq_true, List.isSuffixOf_iff_suffix]
            rcases hpfd with hp | hp | hp
            · exact Or.inl (Or.inl hp)
            · exact Or.inl (Or.inr hp)
            · exact Or.inr hp
          obtain ⟨hty, sd, -, h6⟩ := path_decl d hd hbool
          have hn6 : d.name ∉ ["seed", "run_date", "run_time", "data_path", "out_path", "figs_path"] := by
            rcases h6 with h6 | h6
            · exact absurd h6 h3
            · exact h6.1
          have hv := st.file_value hd hn6 hty hs
          have hcd : ∀ w, c d.name = .str w → c0' d.name = .str w := fun w hw => by
            rw [hc0' d hd hpfd, hw]
          by_cases hin : "_in".toList.isSuffixOf d.name.toList = true
          · obtain ⟨p, p0, hp4, hp0n, hp, hpor, hp4', -⟩ := hpath "data_path" (by simp)
            have hvin := hv.1 hin p0 hp4
            by_cases hex : env.pathExists s = true
            · rw [if_pos hex] at hvin
              have hv' := (st'.file_value hd hn6 hty (hcd _ hvin)).1 hin p hp4'
              rw [hv', hvin, if_pos (hkeep _ hex)]
            · rw [if_neg hex] at hvin
              have hv' := (st'.file_value hd hn6 hty (hcd _ hvin)).1 hin p hp4'
              rw [hv', hvin]
              split
              · rfl
              · unfold fileIn
                rw [abs_join_base hcwd env.userHome hp0n hb, hcwd', hhome]
                rcases hpor with rfl | rfl
                · rfl
                · rw [abs_join hcwd env.userHome hp0n hb]
          · have hin' : "_in".toList.isSuffixOf d.name.toList = false := by rw [Bool.eq_false_iff]; exact hin
            have houtsuf : "_out".toList.isSuffixOf d.name.toList = true := by
              have hdec : ∀ d ∈ cfgFields, "_path".toList.isSuffixOf d.name.toList = true →
                d.name ∈ ["data_path", "out_path", "figs_path"] := by decide +kernel
              rcases hpfd with hp | hp | hp
              · exact absurd (List.isSuffixOf_iff_suffix.2 hp) hin
              · exact List.isSuffixOf_iff_suffix.2 hp
              · exact absurd (hdec d hd (List.isSuffixOf_iff_suffix.2 hp)) h3
            have hvout := hv.2 hin' houtsuf
            have hone : out ≠ [] := by intro e; rw [e] at hslo; simp at hslo
            by_cases hex : env.pathExists s = true
            · rw [if_pos hex] at hvout
              have hv' := (st'.file_value hd hn6 hty (hcd _ hvout)).2 hin' houtsuf
              rw [hv', hvout, if_pos (hkeep _ hex)]
            · rw [if_neg hex] at hvout
              have hv' := (st'.file_value hd hn6 hty (hcd _ hvout)).2 hin' houtsuf
              rw [hv', hvout]
              split
              · rfl
              · unfold fileIn
                rw [abs_join_base hcwd env.userHome hone hb, hcwd', hhome, hout']
                have hj : ∀ x b : Str, Ordinary b → pathJoin (x ++ ['/']) b = x ++ '/' :: b := by
                  intro x b hb
                  rw [pathJoin_ordinary hb, if_pos (Or.inr (by simp))]
                  simp
                apply congrArg PyVal.str
                rw [hj q _ hb]
                rw [hq]
                by_cases hexo : env.pathExists out = true
                · rw [if_pos hexo, habsout]
                  obtain ⟨x, hx⟩ : ∃ x, out = x ++ ['/'] := by rw [ho2]; exact ⟨_, rfl⟩
                  have e2 := preAbs_join env.cwd env.userHome hone hb
                  obtain ⟨b1, b2, b3⟩ := comps_join (preAbs_head hcwd env.userHome out) hb
                  rw [absPath_eq, e2, normPath_abs b3, b1, b2, normComps_append]
                  have : NormalComps [baseName s] := by
                    intro y hy; simp at hy; subst hy; exact hb
                  rw [splitSlash_noSlash hb.2.2.2, normComps_id _ this]
                  simp [comps]
                · rw [if_neg hexo]
                  rw [← abs_join hcwd env.userHome hone hb]
                  have hl : (absPath env.cwd (expandUser env.userHome out)).getLast? ≠ some '/' := by
                    obtain ⟨pre, hpre, e2⟩ := abs_endsIn hcwd env.userHome hord0 htil hE
                    rw [e2]; exact getLast?_ends hord0.1 hord0.2.2.2
                  rw [pathJoin_ordinary hb, if_neg (by simp [hl, abs_ne_nil hcwd])]
    · exact hplain d hd hrec
  · rw [hout', hcwd', hhome]
    split
    · exact rstripSlash_slash q
    · rename_i hne
      rw [hq]
      by_cases hexo : env.pathExists out = true
      · exfalso
        obtain ⟨x, hx⟩ : ∃ x, out = x ++ ['/'] := by rw [ho2]; exact ⟨_, rfl⟩
        rw [hx] at hexo
        apply hne
        have := hslash x hexo
        rw [hq, if_pos (by rw [hx]; exact hexo), hx]
        exact this
      · rw [if_neg hexo, abs_slash hcwd env.userHome rfl hcompsne]
  · intro hfresh
    rw [hout', hcwd', hhome, if_neg (by rw [hfresh]; decide), hq]
    by_cases hexo : env.pathExists out = true
    · exfalso
      obtain ⟨x, hx⟩ : ∃ x, out = x ++ ['/'] := by rw [ho2]; exact ⟨_, rfl⟩
      have e := hslash x (by rw [← hx]; exact hexo)
      rw [hq, if_pos hexo, hx, e] at hfresh
      cases hfresh
    · rw [if_neg hexo, abs_slash hcwd env.userHome rfl hcompsne]


/-- **C56** (partial) file locations: a configuration read back from its values, with the same
current directory and home directories and on a file system that lost no file, has the same
value in every field except the clock; the output path is the same if the output directory does
not exist by then, and otherwise the same up to slashes at its end.  The output path given must
not have the seed's digits in a strange place.  Missing: the exact output path once the
directory exists, see `C56_refuted`. -/
theorem C56_locations_partial (env env' : Env) (kw : List (String × PyVal)) (c : CfgVals)
    (h : makeCfg env kw = .ok c) (hdraw : 1 ≤ env.draw ∧ env.draw ≤ 99998)
    (hnd : (kw.map (·.1)).Nodup)
    (hcwd : env.cwd.head? = some '/') (hcwd' : env'.cwd = env.cwd)
    (hhome : env'.userHome = env.userHome)
    (hkeep : ∀ s, env.pathExists s = true → env'.pathExists s = true)
    (hslash : ∀ s, env.pathExists (s ++ ['/']) = true → env'.pathExists (s ++ ['/'] ++ ['/']) = true)
    (hstr : ∀ f v, (f, v) ∈ kw → PathField f → ∃ s, v = .str s)
    (hord : ∀ f s, (f, .str s) ∈ kw → f ∉ ["data_path", "out_path", "figs_path"] → PathField f →
      baseName s ≠ [] ∧ baseName s ≠ ['.'] ∧ baseName s ≠ ['.', '.'])
    (hout : ∀ s n, ("out_path", .str s) ∈ kw → c "seed" = .int n → PlainOut n s) :
    ∃ c', fromDict env' (toDict c) = .ok c' ∧
      (∀ d ∈ cfgFields, d.name ≠ "run_date" → d.name ≠ "run_time" → d.name ≠ "out_path" →
        c' d.name = c d.name) ∧
      ∃ q q', c "out_path" = .str q ∧ c' "out_path" = .str q' ∧ rstripSlash q' = rstripSlash q ∧
        (env'.pathExists (q ++ ['/']) = false → q' = q) :=
  locations_core env env' kw c c h hnd hcwd hcwd' hhome hkeep hslash hstr hord hout
    (valid_of_makeCfg h hdraw) (fun _ _ _ => rfl)

/-- The values of the comet configuration before it is rebuilt. -/
def cometVals (c : CfgVals) : CfgVals :=
  setAttr (setAttr (setAttr (setAttr c "is_comet" (.bool true)) "hydrated_wt_pct"
    (c "comet_hydrated_wt_pct")) "impactor_density" (c "comet_density")) "impact_mass_retained"
    (c "comet_mass_retained")

theorem cometVals_ne (c : CfgVals) {f : String} (h1 : f ≠ "is_comet") (h2 : f ≠ "hydrated_wt_pct")
    (h3 : f ≠ "impactor_density") (h4 : f ≠ "impact_mass_retained") : cometVals c f = c f := by
  unfold cometVals
  rw [setAttr_ne _ _ h4, setAttr_ne _ _ h3, setAttr_ne _ _ h2, setAttr_ne _ _ h1]

theorem getCometCfg_eq (env : Env) (c : CfgVals) : getCometCfg env c = makeCfg env (toDict (cometVals c)) := by
  unfold getCometCfg fromDict
  apply congrArg
  unfold toDict
  rw [List.map_map]
  apply List.map_congr_left
  intro d hd
  simp only [Function.comp_apply]
  by_cases h1 : d.name = "is_comet"
  · rw [if_pos h1, h1]
    unfold cometVals
    rw [setAttr_ne _ _ (by decide), setAttr_ne _ _ (by decide), setAttr_ne _ _ (by decide), setAttr_same]
  · rw [if_neg h1]
    by_cases h2 : d.name = "hydrated_wt_pct"
    · rw [if_pos h2, h2]
      unfold cometVals
      rw [setAttr_ne _ _ (by decide), setAttr_ne _ _ (by decide), setAttr_same]
    · rw [if_neg h2]
      by_cases h3 : d.name = "impactor_density"
      · rw [if_pos h3, h3]
        unfold cometVals
        rw [setAttr_ne _ _ (by decide), setAttr_same]
      · rw [if_neg h3]
        by_cases h4 : d.name = "impact_mass_retained"
        · rw [if_pos h4, h4]
          unfold cometVals
          rw [setAttr_same]
        · rw [if_neg h4, cometVals_ne c h1 h2 h3 h4]

theorem comet_decl : ∀ d ∈ cfgFields,
    (d.name = "is_comet" → d.type = .bool) ∧
    (d.name ∈ ["hydrated_wt_pct", "impactor_density", "impact_mass_retained"] → d.type = .float) := by
  decide +kernel

theorem comet_source : ∀ f ∈ ["comet_hydrated_wt_pct", "comet_density", "comet_mass_retained"],
    ∃ d ∈ cfgFields, d.name = f ∧ d.type = .float := by decide +kernel

theorem comet_fields : ∀ f ∈ ["is_comet", "hydrated_wt_pct", "impactor_density", "impact_mass_retained"],
    isPlain f = true ∧ ∃ d ∈ cfgFields, d.name = f := by decide +kernel

theorem valid_comet {c : CfgVals} (h : Valid c) : Valid (cometVals c) := by
  have hsrc : ∀ f ∈ ["comet_hydrated_wt_pct", "comet_density", "comet_mass_retained"],
      HasType .float (c f) := by
    intro f hf
    obtain ⟨d, hd, h1, h2⟩ := comet_source f hf
    rw [← h1, ← h2]; exact h.types d hd
  have hne : ∀ f ∈ ["seed", "mode", "pole"], cometVals c f = c f := by
    intro f hf
    simp only [List.mem_cons, List.not_mem_nil, or_false] at hf
    rcases hf with rfl | rfl | rfl <;>
      exact cometVals_ne c (by decide) (by decide) (by decide) (by decide)
  refine ⟨?_, ?_, ?_, ?_⟩
  · intro d hd
    obtain ⟨t1, t2⟩ := comet_decl d hd
    by_cases h1 : d.name = "is_comet"
    · rw [t1 h1, h1]
      unfold cometVals
      rw [setAttr_ne _ _ (by decide), setAttr_ne _ _ (by decide), setAttr_ne _ _ (by decide), setAttr_same]
      constructor
    by_cases h2 : d.name = "hydrated_wt_pct"
    · rw [t2 (by rw [h2]; simp), h2]
      unfold cometVals
      rw [setAttr_ne _ _ (by decide), setAttr_ne _ _ (by decide), setAttr_same]
      exact hsrc _ (by simp)
    by_cases h3 : d.name = "impactor_density"
    · rw [t2 (by rw [h3]; simp), h3]
      unfold cometVals
      rw [setAttr_ne _ _ (by decide), setAttr_same]
      exact hsrc _ (by simp)
    by_cases h4 : d.name = "impact_mass_retained"
    · rw [t2 (by rw [h4]; simp), h4]
      unfold cometVals
      rw [setAttr_same]
      exact hsrc _ (by simp)
    rw [cometVals_ne c h1 h2 h3 h4]
    exact h.types d hd
  · rw [hne _ (by simp)]; exact h.seed
  · rw [hne _ (by simp)]; exact h.mode
  · rw [hne _ (by simp)]; exact h.pole

theorem comet_values {c c' : CfgVals}
    (hp : ∀ d ∈ cfgFields, ¬ Recomputed d.name → c' d.name = cometVals c d.name) :
    c' "is_comet" = .bool true ∧ c' "hydrated_wt_pct" = c "comet_hydrated_wt_pct" ∧
      c' "impactor_density" = c "comet_density" ∧
      c' "impact_mass_retained" = c "comet_mass_retained" := by
  have key : ∀ f ∈ ["is_comet", "hydrated_wt_pct", "impactor_density", "impact_mass_retained"],
      c' f = cometVals c f := by
    intro f hf
    obtain ⟨h1, d, hd, rfl⟩ := comet_fields f hf
    exact hp d hd ((isPlain_iff _).1 h1)
  refine ⟨?_, ?_, ?_, ?_⟩
  · rw [key _ (by simp)]
    unfold cometVals
    rw [setAttr_ne _ _ (by decide), setAttr_ne _ _ (by decide), setAttr_ne _ _ (by decide), setAttr_same]
  · rw [key _ (by simp)]
    unfold cometVals
    rw [setAttr_ne _ _ (by decide), setAttr_ne _ _ (by decide), setAttr_same]
  · rw [key _ (by simp)]
    unfold cometVals
    rw [setAttr_ne _ _ (by decide), setAttr_same]
  · rw [key _ (by simp)]
    unfold cometVals
    rw [setAttr_same]

/-- **C58** the comet configuration exists for every configuration, has the comet values of the
four impactor parameters and the seed and every other run parameter of the original, on any day
and file system. -/
theorem C58_comet (env env' : Env) (kw : List (String × PyVal)) (c : CfgVals)
    (h : makeCfg env kw = .ok c) (hdraw : 1 ≤ env.draw ∧ env.draw ≤ 99998) :
    ∃ c', getCometCfg env' c = .ok c' ∧ c' "is_comet" = .bool true ∧
      c' "hydrated_wt_pct" = c "comet_hydrated_wt_pct" ∧
      c' "impactor_density" = c "comet_density" ∧
      c' "impact_mass_retained" = c "comet_mass_retained" ∧ c' "seed" = c "seed" ∧
      ∀ d ∈ cfgFields, ¬ Recomputed d.name → d.name ∉ ["is_comet", "hydrated_wt_pct",
        "impactor_density", "impact_mass_retained"] → c' d.name = c d.name := by
  obtain ⟨c', h1, h2, h3⟩ := makeCfg_typed env' (cometVals c) (valid_comet (valid_of_makeCfg h hdraw))
  obtain ⟨v1, v2, v3, v4⟩ := comet_values h2
  refine ⟨c', by rw [getCometCfg_eq]; exact h1, v1, v2, v3, v4, ?_, ?_⟩
  · rw [h3]; exact cometVals_ne c (by decide) (by decide) (by decide) (by decide)
  · intro d hd hr hn
    simp only [List.mem_cons, List.not_mem_nil, or_false, not_or] at hn
    rw [h2 d hd hr]
    exact cometVals_ne c hn.1 hn.2.1 hn.2.2.1 hn.2.2.2

theorem comet_not_path : ∀ f ∈ ["is_comet", "hydrated_wt_pct", "impactor_density", "impact_mass_retained"],
    ("_in".toList.isSuffixOf f.toList || "_out".toList.isSuffixOf f.toList ||
      "_path".toList.isSuffixOf f.toList) = false ∧ f ≠ "seed" := by decide +kernel

/-- **C58** the file locations of the comet configuration are those of the original, under the
conditions of `C56_locations_partial`; the output path up to slashes at the end. -/
theorem C58_locations (env env' : Env) (kw : List (String × PyVal)) (c : CfgVals)
    (h : makeCfg env kw = .ok c) (hdraw : 1 ≤ env.draw ∧ env.draw ≤ 99998)
    (hnd : (kw.map (·.1)).Nodup)
    (hcwd : env.cwd.head? = some '/') (hcwd' : env'.cwd = env.cwd)
    (hhome : env'.userHome = env.userHome)
    (hkeep : ∀ s, env.pathExists s = true → env'.pathExists s = true)
    (hslash : ∀ s, env.pathExists (s ++ ['/']) = true → env'.pathExists (s ++ ['/'] ++ ['/']) = true)
    (hstr : ∀ f v, (f, v) ∈ kw → PathField f → ∃ s, v = .str s)
    (hord : ∀ f s, (f, .str s) ∈ kw → f ∉ ["data_path", "out_path", "figs_path"] → PathField f →
      baseName s ≠ [] ∧ baseName s ≠ ['.'] ∧ baseName s ≠ ['.', '.'])
    (hout : ∀ s n, ("out_path", .str s) ∈ kw → c "seed" = .int n → PlainOut n s) :
    ∃ c', getCometCfg env' c = .ok c' ∧
      (∀ d ∈ cfgFields, d.name ≠ "run_date" → d.name ≠ "run_time" → d.name ≠ "out_path" →
        d.name ∉ ["is_comet", "hydrated_wt_pct", "impactor_density", "impact_mass_retained"] →
        c' d.name = c d.name) ∧
      ∃ q q', c "out_path" = .str q ∧ c' "out_path" = .str q' ∧ rstripSlash q' = rstripSlash q := by
  obtain ⟨c', h1, h2, q, q', h3, h4, h5, -⟩ := locations_core env env' kw c (cometVals c) h hnd hcwd hcwd'
    hhome hkeep hslash hstr hord hout (valid_comet (valid_of_makeCfg h hdraw)) (by
      intro d hd hp
      by_cases hm : d.name ∈ ["is_comet", "hydrated_wt_pct", "impactor_density", "impact_mass_retained"]
      · obtain ⟨k1, k2⟩ := comet_not_path _ hm
        rcases hp with hp | hp
        · exfalso
          simp only [Bool.or_eq_false_iff] at k1
          rcases hp with hp | hp | hp
          · exact absurd (List.isSuffixOf_iff_suffix.2 hp) (by rw [k1.1.1]; decide)
          · exact absurd (List.isSuffixOf_iff_suffix.2 hp) (by rw [k1.1.2]; decide)
          · exact absurd (List.isSuffixOf_iff_suffix.2 hp) (by rw [k1.2]; decide)
        · exact absurd hp k2
      · simp only [List.mem_cons, List.not_mem_nil, or_false, not_or] at hm
        exact cometVals_ne c hm.1 hm.2.1 hm.2.2.1 hm.2.2.2)
  refine ⟨c', by rw [getCometCfg_eq]; exact h1, ?_, q, q', h3, h4, h5⟩
  intro d hd n1 n2 n3 hn
  simp only [List.mem_cons, List.not_mem_nil, or_false, not_or] at hn
  rw [h2 d hd n1 n2 n3]
  exact cometVals_ne c hn.1 hn.2.1 hn.2.2.1 hn.2.2.2

/-- The same world where only the data directory exists, with any number of slashes. -/
def env2 : Env := { env0 with
  pathExists := fun s => s == "/pkg/data/".toList || s == "/pkg/data//".toList }

example : (makeCfg env0 []).isOk ∧ env0.cwd.head? = some '/' ∧ env2.cwd = env0.cwd ∧
    env2.userHome = env0.userHome ∧ (∀ s, env0.pathExists s = true → env2.pathExists s = true) ∧
    (∀ s, env0.pathExists (s ++ ['/']) = true → env2.pathExists (s ++ ['/'] ++ ['/']) = true) ∧
    env2.pathExists "/home/u/out/240101/moonpies/00777/".toList = false := by
  refine ⟨by decide +kernel, rfl, rfl, rfl, ?_, ?_, by decide +kernel⟩
  · intro s hs
    have : s = "/pkg/data/".toList := by simpa [env0] using hs
    subst this; decide +kernel
  · intro s hs
    have : s ++ ['/'] = "/pkg/data/".toList := by
      have : (s ++ ['/'] == "/pkg/data/".toList) = true := hs
      simpa using this
    rw [this]; decide +kernel

example : (makeCfg env0 []).bind (fun c => (getCometCfg env0 c).map (fun c' =>
    (c' "is_comet", c' "impactor_density", c' "seed"))) =
      .ok (.bool true, .float 600, .int 777) := by decide +kernel

end MoonPIES
