import Verif.Lemmas.Where
import Verif.Props.ConfigPath

/-!
# C91: where a run keeps its files
-/

namespace MoonPIES

open Spec

theorem Steps.setting {env : Env} {kw : List (String × PyVal)} {c c0 c4 c5 : CfgVals} {n : Int}
    {md pd : List (String × PyVal)} {out : Str} (h : Steps env kw c c0 c4 c5 n md pd out)
    (hnd : (kw.map (·.1)).Nodup) {f : String} {v : PyVal} (hv : Setting kw f v) : c0 f = v := by
  rcases hv with hv | ⟨hm, d, hd, rfl, rfl⟩
  · exact (initFields_ok h.init).2.1 _ _ hnd hv
  · exact (initFields_ok h.init).2.2 d hd hm

theorem notGiven_setting {kw : List (String × PyVal)} {f : String} (h : NotGiven kw f)
    (hd : ∃ d ∈ cfgFields, d.name = f ∧ d.dflt = .str []) : Setting kw f (.str []) := by
  by_cases hm : f ∈ kw.map (·.1)
  · obtain ⟨⟨g, v⟩, hkv, rfl⟩ := List.mem_map.1 hm
    have := h v hkv
    subst this
    exact Or.inl hkv
  · exact Or.inr ⟨hm, hd⟩

/-- Where everything is when the output directory is `P/r/t`. -/
theorem Steps.where_files {env : Env} {kw : List (String × PyVal)} {c c0 c4 c5 : CfgVals} {n : Int}
    {md pd : List (String × PyVal)} {out : Str} (h : Steps env kw c c0 c4 c5 n md pd out)
    (hnd : (kw.map (·.1)).Nodup)
    {P : List Str} {r t : Str} {k : Nat} (hP : ∀ b ∈ P, FileName b) (hr : FileName r) (ht : FileName t)
    (hout : out = inDir (P ++ [r, t]) ++ List.replicate (k + 1) '/') :
    (∃ q, c "out_path" = .str q ∧ SameDir q (inDir (P ++ [r, t]))) ∧
    (NotGiven kw "figs_path" → ∃ q, c "figs_path" = .str q ∧ SameDir q (inDir (P ++ ["figures".toList]))) ∧
    (∀ d ∈ cfgFields, "_out".toList <:+ d.name.toList → d.type = .str → ∀ pre b, FileName b →
      (pre = [] ∨ pre.getLast? = some '/') → Setting kw d.name (.str (pre ++ b)) →
      env.pathExists (pre ++ b) = false → c d.name = .str (inDir (P ++ [r, t, b]))) := by
  have hn : ∀ b ∈ P ++ [r, t], FileName b := by
    intro b hb
    rcases List.mem_append.1 hb with hb | hb
    · exact hP b hb
    · simp only [List.mem_cons, List.not_mem_nil, or_false] at hb
      rcases hb with rfl | rfl
      · exact hr
      · exact ht
  have h0 : P ++ [r, t] ≠ [] := by simp
  have hfig : FileName "figures".toList := by
    refine ⟨?_, ?_, ?_, ?_⟩ <;> decide
  have same : ∀ (ns : List Str) (f : String) (k : Nat), ns ≠ [] → (∀ b ∈ ns, FileName b) →
      f ∈ ["data_path", "out_path", "figs_path"] → c4 f = .str (inDir ns ++ List.replicate k '/') →
      ∃ q, c f = .str q ∧ SameDir q (inDir ns) := by
    intro ns f k hne hns hf h4
    refine ⟨_, h.path_value hf h4, ?_⟩
    split
    · exact ⟨k, rfl⟩
    · exact ⟨0, by rw [(abs_inDir _ _ hne hns (comps_inDir_slash hns k) hne).2]; simp⟩
  refine ⟨?_, ?_, ?_⟩
  · exact same _ _ _ h0 hn (by simp) (by rw [h.c4_out, hout])
  · intro hng
    refine same _ _ 1 (by simp) ?_ (by simp) ?_
    · intro b hb
      rcases List.mem_append.1 hb with hb | hb
      · exact hP b hb
      · simp only [List.mem_singleton] at hb
        rw [hb]; exact hfig
    · rw [h.c4_figs, h.setting hnd (notGiven_setting hng (by decide +kernel)), if_neg (by simp), hout,
        inDir_slash_join _ _ (by decide)]
      have j : ∀ (x s : Str), s.head? ≠ some '/' → pathJoin (x ++ '/' :: "..".toList) s = x ++ '/' :: ("..".toList ++ '/' :: s) := by
        intro x s hs
        unfold pathJoin
        rw [if_neg hs, if_neg]
        · simp
        · rintro (e | e)
          · simp at e
          · simp at e
      rw [j _ _ (by decide)]
      have e2 : ∀ x : Str, x ++ '/' :: ("..".toList ++ '/' :: "..".toList) = (x ++ '/' :: "..".toList) ++ '/' :: "..".toList := by
        simp
      rw [e2, j _ _ (by decide)]
      have e3 : ∀ x y : Str, (x ++ '/' :: "..".toList) ++ '/' :: y = x ++ '/' :: ("..".toList ++ '/' :: y) := by simp
      have := (abs_inDir env.cwd env.userHome (ms := P ++ ["figures".toList]) h0 hn (y := List.replicate k '/' ++
        '/' :: ("..".toList ++ '/' :: ("..".toList ++ '/' :: "figures".toList)))
        (by rw [← List.append_assoc]; exact comps_up hP hr ht hfig k) (by simp)).1
      rw [e3, List.append_assoc, this]
      rfl
  · intro d hd hsuf hty pre b hb hpre hset hex
    have hnm : d.name ∉ ["seed", "run_date", "run_time", "data_path", "out_path", "figs_path"] := by
      intro hm
      have : ∀ f ∈ ["seed", "run_date", "run_time", "data_path", "out_path", "figs_path"],
          "_out".toList.isSuffixOf f.toList = false := by decide +kernel
      have := this _ hm
      rw [List.isSuffixOf_iff_suffix.2 hsuf] at this
      cases this
    have hin : "_in".toList.isSuffixOf d.name.toList = false := by
      cases e : "_in".toList.isSuffixOf d.name.toList with
      | false => rfl
      | true =>
        have : ∀ d ∈ cfgFields, ¬ ("_out".toList.isSuffixOf d.name.toList = true ∧
          "_in".toList.isSuffixOf d.name.toList = true) := by decide +kernel
        exact absurd ⟨List.isSuffixOf_iff_suffix.2 hsuf, e⟩ (this d hd)
    have := (h.file_value hd hnm hty (h.setting hnd hset)).2 hin (List.isSuffixOf_iff_suffix.2 hsuf)
    rw [this, hex, if_neg (by simp), baseName_append hpre hb.2.1, fileIn, hout,
      inDir_slash_join _ _ (fileName_head hb)]
    have := (abs_inDir env.cwd env.userHome (ms := P ++ [r, t] ++ [b]) (y := List.replicate k '/' ++ '/' :: b) h0 hn
      (by rw [← List.append_assoc]; exact comps_file hn k hb) (by simp)).2
    rw [List.append_assoc, this, List.append_assoc]
    rfl

/-- Everything `out_path` decides: the output directory `dir` itself, the files in it and the
default directory of the figures, two levels up from it. -/
def Spec.FilesIn (env : Env) (kw : List (String × PyVal)) (c : CfgVals) (parent : List Str)
    (r t : Str) : Prop :=
  (∃ q, c "out_path" = .str q ∧ SameDir q (inDir (parent ++ [r, t]))) ∧
  (NotGiven kw "figs_path" →
    ∃ q, c "figs_path" = .str q ∧ SameDir q (inDir (parent ++ ["figures".toList]))) ∧
  (∀ d ∈ cfgFields, "_out".toList <:+ d.name.toList → ∀ pre b, FileName b →
    (pre = [] ∨ pre.getLast? = some '/') → Setting kw d.name (.str (pre ++ b)) →
    env.pathExists (pre ++ b) = false → c d.name = .str (inDir (parent ++ [r, t, b])))

theorem out_type : ∀ d ∈ cfgFields, "_out".toList <:+ d.name.toList → d.type = .str := by
  have : ∀ d ∈ cfgFields, "_out".toList.isSuffixOf d.name.toList = true → d.type = .str := by
    decide +kernel
  exact fun d hd h => this d hd (List.isSuffixOf_iff_suffix.2 h)

theorem Steps.filesIn {env : Env} {kw : List (String × PyVal)} {c c0 c4 c5 : CfgVals} {n : Int}
    {md pd : List (String × PyVal)} {out : Str} (h : Steps env kw c c0 c4 c5 n md pd out)
    (hnd : (kw.map (·.1)).Nodup)
    {P : List Str} {r t : Str} {k : Nat} (hP : ∀ b ∈ P, FileName b) (hr : FileName r) (ht : FileName t)
    (hout : out = inDir (P ++ [r, t]) ++ List.replicate (k + 1) '/') : FilesIn env kw c P r t := by
  obtain ⟨h1, h2, h3⟩ := h.where_files hnd hP hr ht hout
  exact ⟨h1, h2, fun d hd hs => h3 d hd hs (out_type d hd hs)⟩

theorem seedText_fileName {n : Int} {t : Str} (h : SeedText n t) : FileName t := by
  rw [seedText_iff.1 h]
  obtain ⟨h1, h2, h3, h4⟩ := fmtSeed_ordinary n
  exact ⟨h1, h4, h2, h3⟩

theorem seed_of_steps {env : Env} {kw : List (String × PyVal)} {c c0 c4 c5 : CfgVals} {n m : Int}
    {md pd : List (String × PyVal)} {out : Str} (st : Steps env kw c c0 c4 c5 n md pd out)
    (h : makeCfg env kw = .ok c) (hs : c "seed" = .int m) : n = m := by
  obtain ⟨c0'', n'', hi, hs', hc⟩ := seed_value h
  rw [st.init] at hi; cases hi
  rw [st.seed] at hs'; cases hs'
  rw [hc] at hs; cases hs
  rfl

/-- **C91** without an `out_path`, a run keeps its files in `out/<date>/<run name>/<seed>` under
the current directory and its figures in `out/<date>/figures`. -/
theorem C91_default (env : Env) (kw : List (String × PyVal)) (c : CfgVals)
    (h : makeCfg env kw = .ok c) (hnd : (kw.map (·.1)).Nodup)
    (cwd : List Str) (hc0 : cwd ≠ []) (hcn : ∀ b ∈ cwd, FileName b) (hcwd : env.cwd = inDir cwd)
    (hdate : FileName env.date) (r : Str) (hr : FileName r) (hrun : Setting kw "run_name" (.str r))
    (hout : NotGiven kw "out_path") (n : Int) (hs : c "seed" = .int n) (t : Str) (ht : SeedText n t) :
    FilesIn env kw c (cwd ++ ["out".toList, env.date]) r t := by
  obtain ⟨c0, c4, c5, n', md, pd, out, st⟩ := makeCfg_steps h
  have := seed_of_steps st h hs
  subst this
  have hf := seedText_fileName ht
  have ho : FileName "out".toList := by refine ⟨?_, ?_, ?_, ?_⟩ <;> decide
  have hn : ∀ b ∈ cwd ++ ["out".toList, env.date], FileName b := by
    intro b hb
    rcases List.mem_append.1 hb with hb | hb
    · exact hcn b hb
    · simp only [List.mem_cons, List.not_mem_nil, or_false] at hb
      rcases hb with rfl | rfl
      · exact ho
      · exact hdate
  refine st.filesIn hnd (k := 0) hn hr hf ?_
  have e1 := st.setting hnd (notGiven_setting hout (by decide +kernel))
  have e2 := st.setting hnd hrun
  have := st.outp
  rw [e1, e2] at this
  cases this
  unfold outPathStr
  rw [if_pos rfl, hcwd, inDir_joinName hc0 hcn ho]
  have snoc : ∀ {l : List Str} {s : Str}, (∀ b ∈ l, FileName b) → FileName s → ∀ b ∈ l ++ [s], FileName b := by
    intro l s hl hs b hb
    rcases List.mem_append.1 hb with hb | hb
    · exact hl b hb
    · simp only [List.mem_singleton] at hb
      rw [hb]; exact hs
  have s1 := snoc hcn ho
  have s2 := snoc s1 hdate
  have s3 := snoc s2 hr
  rw [inDir_joinName (by simp) s1 hdate, inDir_joinName (by simp) s2 hr, ← seedText_iff.1 ht,
    inDir_joinName (by simp) s3 hf]
  simp

/-- **C91** with an `out_path` that does not mention the seed, the files go into a directory
named after the seed inside it, or beside it when its own name is a number. -/
theorem C91_given (env : Env) (kw : List (String × PyVal)) (c : CfgVals)
    (h : makeCfg env kw = .ok c) (hnd : (kw.map (·.1)).Nodup)
    (n : Int) (hs : c "seed" = .int n) (t : Str) (ht : SeedText n t)
    (parent : List Str) (hp : ∀ b ∈ parent, FileName b) (r : Str) (hr : FileName r)
    (s : Str) (hout : ("out_path", .str s) ∈ kw)
    (hno : ¬ t <:+: s) :
    (s = inDir (parent ++ [r]) ∨ s = inDir (parent ++ [r]) ++ ['/'] →
      (∃ ch ∈ r, env.isNumeric ch = false) → FilesIn env kw c parent r t) ∧
    (∀ b, FileName b → (∀ ch ∈ b, env.isNumeric ch = true) → SameDir s (inDir (parent ++ [r, b])) →
      FilesIn env kw c parent r t) := by
  obtain ⟨c0, c4, c5, n', md, pd, out, st⟩ := makeCfg_steps h
  have := seed_of_steps st h hs
  subst this
  have hf := seedText_fileName ht
  obtain ⟨s', v, e1, ho⟩ := st.out_str
  rw [st.setting hnd (Or.inl hout)] at e1
  cases e1
  have ho := ho.symm
  have hn : ∀ b ∈ parent ++ [r], FileName b := by
    intro b hb
    rcases List.mem_append.1 hb with hb | hb
    · exact hp b hb
    · simp only [List.mem_singleton] at hb
      rw [hb]; exact hr
  rw [← seedText_iff.1 ht] at ho
  unfold outPathStr at ho
  constructor
  · rintro hsd ⟨ch, hch, hnum⟩
    have hs0 : s ≠ [] := by
      have := inDir_ne_nil (ns := parent ++ [r]) (by simp)
      rcases hsd with rfl | rfl <;> simp [this]
    have hk : ∃ k, s = inDir (parent ++ [r]) ++ List.replicate k '/' := by
      rcases hsd with rfl | rfl
      · exact ⟨0, by simp⟩
      · exact ⟨1, rfl⟩
    obtain ⟨k, hk⟩ := hk
    have hnb : numericBase env s = false := by
      unfold numericBase
      rw [hk, normPath_inDir (by simp) hn, baseName_inDir hr]
      have : r.all env.isNumeric = false := by
        rw [List.all_eq_false]
        exact ⟨ch, hch, by simp [hnum]⟩
      rw [this, Bool.and_false]
    rw [if_neg hs0, if_neg hno, hnb, if_neg (by simp)] at ho
    refine st.filesIn hnd (k := 0) hp hr hf ?_
    rw [← ho]
    have : pathJoin s t = inDir (parent ++ [r] ++ [t]) := by
      rcases hsd with rfl | rfl
      · exact inDir_joinName (by simp) hn hf
      · have := inDir_slash_join (parent ++ [r]) 0 (fileName_head hf)
        rw [inDir_snoc (parent ++ [r])]
        simpa using this
    rw [this]
    simp
  · rintro b hb hnum ⟨k, hk⟩
    have hn' : ∀ x ∈ parent ++ [r, b], FileName x := by
      intro x hx
      rcases List.mem_append.1 hx with hx | hx
      · exact hp x hx
      · simp only [List.mem_cons, List.not_mem_nil, or_false] at hx
        rcases hx with rfl | rfl
        · exact hr
        · exact hb
    have hs0 : s ≠ [] := by
      have := inDir_ne_nil (ns := parent ++ [r, b]) (by simp)
      rw [hk]; simp [this]
    have eN : normPath s = inDir (parent ++ [r] ++ [b]) := by
      rw [hk, normPath_inDir (by simp) hn', List.append_assoc]; rfl
    have hnb : numericBase env s = true := by
      unfold numericBase
      rw [eN, baseName_inDir hb]
      simp only [Bool.and_eq_true, decide_eq_true_eq, List.all_eq_true]
      exact ⟨hb.1, hnum⟩
    rw [if_neg hs0, if_neg hno, hnb, if_pos rfl, eN, dirName_inDir (by simp) hn hb,
      inDir_joinName (by simp) hn hf] at ho
    refine st.filesIn hnd (k := 0) hp hr hf ?_
    rw [← ho]
    simp

/-- **C91** an `out_path` that already ends with the seed is used as it is. -/
theorem C91_kept (env : Env) (kw : List (String × PyVal)) (c : CfgVals)
    (h : makeCfg env kw = .ok c) (hnd : (kw.map (·.1)).Nodup)
    (n : Int) (hs : c "seed" = .int n) (t : Str) (ht : SeedText n t)
    (parent : List Str) (hp : ∀ b ∈ parent, FileName b) (r : Str) (hr : FileName r)
    (s : Str) (hout : ("out_path", .str s) ∈ kw)
    (hsd : SameDir s (inDir (parent ++ [r, t]))) : FilesIn env kw c parent r t := by
  obtain ⟨c0, c4, c5, n', md, pd, out, st⟩ := makeCfg_steps h
  have := seed_of_steps st h hs
  subst this
  have hf := seedText_fileName ht
  obtain ⟨s', v, e1, ho⟩ := st.out_str
  rw [st.setting hnd (Or.inl hout)] at e1
  cases e1
  have ho := ho.symm
  rw [← seedText_iff.1 ht] at ho
  unfold outPathStr at ho
  obtain ⟨k, hk⟩ := hsd
  have hs0 : s ≠ [] := by
    have := inDir_ne_nil (ns := parent ++ [r, t]) (by simp)
    rw [hk]; simp [this]
  have hin : t <:+: s := by
    refine ⟨inDir (parent ++ [r]) ++ ['/'], List.replicate k '/', ?_⟩
    have := inDir_snoc (parent ++ [r]) t
    rw [List.append_assoc parent] at this
    rw [hk]
    show _ = inDir (parent ++ ([r] ++ [t])) ++ _
    rw [this]
    simp
  rw [if_neg hs0, if_pos hin] at ho
  refine st.filesIn hnd (k := k) hp hr hf ?_
  rw [← ho, hk, List.replicate_succ', List.append_assoc]

/-- **C91** without a `data_path`, input files are looked for in the data directory of the
package; a file that exists under the given name is taken as it is. -/
theorem C91_inputs (env : Env) (kw : List (String × PyVal)) (c : CfgVals)
    (h : makeCfg env kw = .ok c) (hnd : (kw.map (·.1)).Nodup)
    (data : List Str) (hd0 : data ≠ []) (hdn : ∀ b ∈ data, FileName b) (hdata : env.dataDir = inDir data)
    (hng : NotGiven kw "data_path") :
    (∃ q, c "data_path" = .str q ∧ SameDir q (inDir data)) ∧
    ∀ d ∈ cfgFields, "_in".toList <:+ d.name.toList → ∀ pre b, FileName b →
      (pre = [] ∨ pre.getLast? = some '/') → Setting kw d.name (.str (pre ++ b)) →
      c d.name = .str (if env.pathExists (pre ++ b) then pre ++ b else inDir (data ++ [b])) := by
  obtain ⟨c0, c4, c5, n, md, pd, out, st⟩ := makeCfg_steps h
  have h4 : c4 "data_path" = .str (inDir data ++ ['/']) := by
    rw [st.c4_data, st.setting hnd (notGiven_setting hng (by decide +kernel)), if_neg (by simp), hdata]
  constructor
  · refine ⟨_, st.path_value (by simp) h4, ?_⟩
    split
    · exact ⟨1, rfl⟩
    · exact ⟨0, by
        have := (abs_inDir env.cwd env.userHome hd0 hdn (comps_inDir_slash hdn 1) hd0).2
        simp only [List.replicate_one] at this
        rw [this]; simp⟩
  · intro d hd hsuf pre b hb hpre hset
    have hall : ∀ d ∈ cfgFields, "_in".toList.isSuffixOf d.name.toList = true → d.type = .str ∧
        d.name ∉ ["seed", "run_date", "run_time", "data_path", "out_path", "figs_path"] := by
      decide +kernel
    have hs := List.isSuffixOf_iff_suffix.2 hsuf
    obtain ⟨hty, hnm⟩ := hall d hd hs
    rw [(st.file_value hd hnm hty (st.setting hnd hset)).1 hs _ h4, baseName_append hpre hb.2.1, fileIn]
    have j := inDir_slash_join data 0 (fileName_head hb)
    simp only [Nat.zero_add, List.replicate_one, List.replicate_zero, List.append_nil] at j
    have := (abs_inDir env.cwd env.userHome (ms := data ++ [b]) (y := '/' :: b) hd0 hdn
      (by simpa using comps_file hdn 0 hb) (by simp)).2
    rw [j, this]

theorem fileName_dec (s : Str) (h : (s != [] && !s.contains '/' && s != ".".toList && s != "..".toList) = true) :
    FileName s := by
  simp only [Bool.and_eq_true, bne_iff_ne, Bool.not_eq_true', ne_eq] at h
  refine ⟨h.1.1.1, ?_, h.1.2, h.2⟩
  intro hm
  have := h.1.1.2
  rw [List.contains_iff_mem.2 hm] at this
  cases this

/-- A run without settings, one given a plain directory and one given another run's directory. -/
example :
    (∃ cwd : List Str, cwd ≠ [] ∧ (∀ b ∈ cwd, FileName b) ∧ env0.cwd = inDir cwd) ∧ FileName env0.date ∧
    (makeCfg env0 [("seed", .int 5)]).map (fun c => (c "out_path", c "figs_path", c "ice_t_csv_out")) =
      .ok (.str (inDir ["home".toList, "u".toList, "out".toList, env0.date, "moonpies".toList, "00005".toList]),
        .str (inDir ["home".toList, "u".toList, "out".toList, env0.date, "figures".toList]),
        .str (inDir ["home".toList, "u".toList, "out".toList, env0.date, "moonpies".toList, "00005".toList,
          "ice_columns.csv".toList])) ∧
    (makeCfg env0 [("seed", .int 5), ("out_path", .str "/data/runs".toList)]).map (fun c => (c "out_path", c "figs_path")) =
      .ok (.str (inDir ["data".toList, "runs".toList, "00005".toList]), .str (inDir ["data".toList, "figures".toList])) ∧
    (makeCfg env0 [("seed", .int 5), ("out_path", .str "/data/runs/00004/".toList)]).map (fun c => c "out_path") =
      .ok (.str (inDir ["data".toList, "runs".toList, "00005".toList])) := by
  refine ⟨⟨["home".toList, "u".toList], by simp, ?_, by decide +kernel⟩, fileName_dec _ (by decide +kernel), ?_, ?_, ?_⟩
  · intro b hb
    simp only [List.mem_cons, List.not_mem_nil, or_false] at hb
    rcases hb with rfl | rfl <;> exact fileName_dec _ (by decide +kernel)
  all_goals decide +kernel

end MoonPIES
