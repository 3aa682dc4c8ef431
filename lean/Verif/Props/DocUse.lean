import Verif.Model.DocUse
import Verif.Props.Where
import Verif.Props.ConfigRound
import Verif.Props.Files
import Verif.Props.PyText
import Verif.Props.CfgRun

/-!
# C138: what the documentation says about files
-/

namespace MoonPIES

open Spec

/-! ## Names of a path -/

theorem pathNames_inDir {ns : List Str} (h : ∀ b ∈ ns, FileName b) (k : Nat) :
    pathNames (inDir ns ++ List.replicate k '/') = ns := by
  have hs : ∀ k, splitSlash (inDir ns ++ List.replicate k '/') = [] :: ns ++ List.replicate k [] := by
    intro k
    induction k with
    | zero => simpa using inDir_split h
    | succ k ih =>
      have : inDir ns ++ List.replicate (k + 1) '/' = (inDir ns ++ List.replicate k '/') ++ '/' :: [] := by
        rw [List.replicate_succ']; simp
      rw [this, splitSlash_append, ih, List.replicate_succ']
      simp [splitSlash]
  unfold pathNames
  rw [hs, List.filter_append, List.filter_cons_of_neg (by simp),
    List.filter_eq_self.2 (by
      intro b hb
      have := h b hb
      simpa using ⟨this.1, this.2.2.1⟩),
    List.filter_eq_nil_iff.2 (by
      intro b hb
      simp [List.eq_of_mem_replicate hb]), List.append_nil]

theorem pathDiv_name (a : List Str) {b : Str} (hb : FileName b) : pathDiv a b = a ++ [b] := by
  unfold pathDiv
  rw [if_neg (fileName_head hb)]
  congr 1
  unfold pathNames
  rw [splitSlash_noSlash hb.2.1, List.filter_eq_self.2]
  intro x hx
  rw [List.mem_singleton.1 hx]
  simpa using ⟨hb.1, hb.2.2.1⟩

theorem stratName_file {trap : Str} (h : '/' ∉ trap) : FileName (stratName trap) := by
  obtain ⟨h1, h2, h3, h4⟩ := stratName_ordinary h
  exact ⟨h1, h4, h2, h3⟩

theorem stratFile_eq {c : CfgVals} {parent : List Str} {r t R : Str} {n : Int} {q : Str}
    (hp : ∀ b ∈ parent, FileName b) (hr : FileName r) (hR : FileName R) (ht : SeedText n t)
    (hq : c "out_path" = .str q) (hsd : SameDir q (inDir (parent ++ [r, t])))
    (hrun : c "run_name" = .str R) (hseed : c "seed" = .int n) {trap : Str} (htr : '/' ∉ trap) :
    stratFile c trap = .ok (parent ++ [R, t, stratName trap]) := by
  obtain ⟨k, rfl⟩ := hsd
  have hf := seedText_fileName ht
  have hn : ∀ b ∈ parent ++ [r, t], FileName b := by
    intro b hb
    rcases List.mem_append.1 hb with hb | hb
    · exact hp b hb
    · simp only [List.mem_cons, List.not_mem_nil, or_false] at hb
      rcases hb with rfl | rfl
      · exact hr
      · exact hf
  have hdate : datePath (inDir (parent ++ [r, t]) ++ List.replicate k '/') = .ok parent := by
    unfold datePath
    rw [pathNames_inDir hn, if_neg (by simp)]
    simp
  unfold stratFile
  rw [hq, hrun, hseed]
  simp only [strVal, intVal, hdate, bind, Except.bind]
  rw [← seedText_iff.1 ht, pathDiv_name _ hR, pathDiv_name _ hf, ]
  have := pathDiv_name (parent ++ [R] ++ [t]) (stratName_file htr)
  unfold stratName at this
  rw [this]
  simp [stratName]

/-- **C138** where `plot_stratigraphy` looks, and where the run put the table.  `r` and `t` are the last two
directories of the output path of the run and `R` its name: the table is looked for in `R/t`, so it is found
exactly if `R = r`. -/
theorem C138_looks (env env' : Env) (kw : List (String × PyVal)) (c : CfgVals)
    (h : makeCfg env kw = .ok c) (hdraw : 1 ≤ env.draw ∧ env.draw ≤ 99998)
    (parent : List Str) (hp : ∀ b ∈ parent, FileName b) (r t R : Str) (hr : FileName r) (hR : FileName R)
    (n : Int) (hseed : c "seed" = .int n) (ht : SeedText n t) (hrun : c "run_name" = .str R)
    (hout : ∃ q, c "out_path" = .str q ∧ SameDir q (inDir (parent ++ [r, t])))
    (more : List (List (String × PyVal))) :
    ∃ c', plotCfg env' (toDict c :: more) = .ok c' ∧ ∀ trap, '/' ∉ trap →
      stratFile c' trap = .ok (parent ++ [R, t, stratName trap]) ∧
      locate env.cwd (pathJoin (strVal (c "out_path")) (stratName trap)) = parent ++ [r, t, stratName trap] ∧
      (stratFile c' trap = .ok (locate env.cwd (pathJoin (strVal (c "out_path")) (stratName trap))) ↔ R = r) := by
  obtain ⟨c', h1, h2, h3⟩ := C56_round_trip_partial env env' kw c h hdraw
  refine ⟨c', h1, fun trap htr => ?_⟩
  obtain ⟨q, hq, hsd⟩ := hout
  have hmem : ("out_path", PyVal.str q) ∈ toDict c := by
    have : ∃ d ∈ cfgFields, d.name = "out_path" := by decide +kernel
    obtain ⟨d, hd, e⟩ := this
    unfold toDict
    exact List.mem_map.2 ⟨d, hd, by rw [e, hq]⟩
  have hs' : c' "seed" = .int n := by rw [h3, hseed]
  obtain ⟨⟨q', hq', hsd'⟩, -⟩ := C91_kept env' (toDict c) c' h1 (toDict_nodup c) n hs' t ht parent hp r hr q hmem hsd
  have hrun' : c' "run_name" = .str R := by
    have : ∃ d ∈ cfgFields, d.name = "run_name" ∧ ¬ Recomputed d.name := by
      have : ∃ d ∈ cfgFields, d.name = "run_name" := by decide +kernel
      obtain ⟨d, hd, e⟩ := this
      exact ⟨d, hd, e, by rw [e]; exact (isPlain_iff "run_name").1 (by decide +kernel)⟩
    obtain ⟨d, hd, e, hnr⟩ := this
    have := h2 d hd hnr
    rw [e] at this
    rw [this, hrun]
  have l1 := stratFile_eq hp hr hR ht hq' hsd' hrun' hs' htr
  have l2 : locate env.cwd (pathJoin (strVal (c "out_path")) (stratName trap)) =
      parent ++ [r, t, stratName trap] := by
    obtain ⟨k, rfl⟩ := hsd
    have hn : ∀ b ∈ parent ++ [r, t], FileName b := by
      intro b hb
      rcases List.mem_append.1 hb with hb | hb
      · exact hp b hb
      · simp only [List.mem_cons, List.not_mem_nil, or_false] at hb
        rcases hb with rfl | rfl
        · exact hr
        · exact seedText_fileName ht
    have hsn := stratName_file htr
    rw [hq]
    simp only [strVal]
    have key : ∀ k, locate env.cwd (inDir (parent ++ [r, t]) ++ List.replicate k '/' ++ '/' :: stratName trap) =
        parent ++ [r, t, stratName trap] := by
      intro k
      have := comps_file hn k hsn
      unfold comps at this
      unfold locate
      rw [if_pos (by rw [List.append_assoc, List.head?_append, inDir_head (by simp)]; rfl), this]
      simp
    cases k with
    | zero =>
      have := key 0
      rw [List.replicate_zero, List.append_nil] at this ⊢
      rw [inDir_join (by simp) hn (fileName_head hsn), this]
    | succ k => rw [inDir_slash_join _ _ (fileName_head hsn), key k]
  refine ⟨l1, l2, ?_⟩
  rw [l1, l2, Except.ok.injEq, List.append_cancel_left_eq, List.cons.injEq]
  exact ⟨fun h => h.1, fun h => ⟨h, rfl⟩⟩

theorem run_name_value {env : Env} {kw : List (String × PyVal)} {c : CfgVals}
    (h : makeCfg env kw = .ok c) (hnd : (kw.map (·.1)).Nodup) {R : Str}
    (hrun : Setting kw "run_name" (.str R)) : c "run_name" = .str R := by
  obtain ⟨c0, c4, c5, n, md, pd, out, st⟩ := makeCfg_steps h
  obtain ⟨d, hd, e⟩ : ∃ d ∈ cfgFields, d.name = "run_name" := by decide +kernel
  have hp : isPlain "run_name" = true := by decide +kernel
  have h1 := st.plain hd (by rw [e]; exact hp)
  obtain ⟨sm, -, hm⟩ := dictGet_ok st.mode
  obtain ⟨sp, -, hp'⟩ := dictGet_ok st.pole
  have a1 := tables_avoid (sm, md) (List.mem_append_left _ hm) "run_name" (by simp)
  have a2 := tables_avoid (sp, pd) (List.mem_append_right _ hp') "run_name" (by simp)
  rw [e, fillNone_not_mem _ _ _ a2, fillNone_not_mem _ _ _ a1, st.setting hnd hrun] at h1
  have hty : ∀ d ∈ cfgFields, d.name = "run_name" → d.type = .str := by decide +kernel
  unfold enforceOne at h1
  rw [hty d hd e] at h1
  simpa [isInstance] using h1.symm

/-- **C138** without an `out_path`, the picture of the output directory shows the tables of the run. -/
theorem C138_default_partial (env env' : Env) (kw : List (String × PyVal)) (c : CfgVals)
    (h : makeCfg env kw = .ok c) (hdraw : 1 ≤ env.draw ∧ env.draw ≤ 99998) (hnd : (kw.map (·.1)).Nodup)
    (cwd : List Str) (hc0 : cwd ≠ []) (hcn : ∀ b ∈ cwd, FileName b) (hcwd : env.cwd = inDir cwd)
    (hdate : FileName env.date) (R : Str) (hR : FileName R) (hrun : Setting kw "run_name" (.str R))
    (hout : NotGiven kw "out_path") (more : List (List (String × PyVal))) :
    ∃ c', plotCfg env' (toDict c :: more) = .ok c' ∧ ∀ trap, '/' ∉ trap →
      stratFile c' trap = .ok (locate env.cwd (pathJoin (strVal (c "out_path")) (stratName trap))) := by
  obtain ⟨c0, n, -, -, hs⟩ := seed_value h
  have hf := C91_default env kw c h hnd cwd hc0 hcn hcwd hdate R hR hrun hout n hs _ (seedText_fmt n)
  have hP : ∀ b ∈ cwd ++ ["out".toList, env.date], FileName b := by
    intro b hb
    rcases List.mem_append.1 hb with hb | hb
    · exact hcn b hb
    · simp only [List.mem_cons, List.not_mem_nil, or_false] at hb
      rcases hb with rfl | rfl
      · refine ⟨?_, ?_, ?_, ?_⟩ <;> decide
      · exact hdate
  obtain ⟨c', h1, h2⟩ := C138_looks env env' kw c h hdraw _ hP R _ R hR hR n hs (seedText_fmt n)
    (run_name_value h hnd hrun) hf.1 more
  exact ⟨c', h1, fun trap ht => ((h2 trap ht).2.2).2 rfl⟩

/-- **C138 (refuted)** with any `out_path` whose last directory is neither a number nor the name of the run, as
the README recommends, no table of the run is found. -/
theorem C138_given_refuted (env env' : Env) (kw : List (String × PyVal)) (c : CfgVals)
    (h : makeCfg env kw = .ok c) (hdraw : 1 ≤ env.draw ∧ env.draw ≤ 99998) (hnd : (kw.map (·.1)).Nodup)
    (n : Int) (hs : c "seed" = .int n) (t : Str) (ht : SeedText n t)
    (parent : List Str) (hp : ∀ b ∈ parent, FileName b) (r : Str) (hr : FileName r)
    (s : Str) (hout : ("out_path", .str s) ∈ kw) (hno : ¬ t <:+: s)
    (hsr : s = inDir (parent ++ [r]) ∨ s = inDir (parent ++ [r]) ++ ['/'])
    (hnum : ∃ ch ∈ r, env.isNumeric ch = false) (R : Str) (hR : FileName R)
    (hrun : Setting kw "run_name" (.str R)) (hne : R ≠ r) (more : List (List (String × PyVal))) :
    ∃ c', plotCfg env' (toDict c :: more) = .ok c' ∧ ∀ trap, '/' ∉ trap →
      stratFile c' trap = .ok (parent ++ [R, t, stratName trap]) ∧
      stratFile c' trap ≠ .ok (locate env.cwd (pathJoin (strVal (c "out_path")) (stratName trap))) := by
  have hf := (C91_given env kw c h hnd n hs t ht parent hp r hr s hout hno).1 hsr hnum
  obtain ⟨c', h1, h2⟩ := C138_looks env env' kw c h hdraw _ hp r t R hr hR n hs ht
    (run_name_value h hnd hrun) hf.1 more
  exact ⟨c', h1, fun trap htr => ⟨(h2 trap htr).1, fun e => hne (((h2 trap htr).2.2).1 e)⟩⟩

/-! ## An output directory in the home directory -/

/-- **C138** the example of the README: with `out_path` `~/r` or `~/r/` the output directory is `r/<seed>` in the
home directory and so are the output files; but the figures go to a directory called `~` in the current one. -/
theorem C138_home (env : Env) (kw : List (String × PyVal)) (c : CfgVals)
    (h : makeCfg env kw = .ok c) (hnd : (kw.map (·.1)).Nodup)
    (n : Int) (hs : c "seed" = .int n) (t : Str) (ht : SeedText n t)
    (home cwd : List Str) (hh0 : home ≠ []) (hhn : ∀ b ∈ home, FileName b) (hhome : env.userHome ['~'] = some (inDir home))
    (hc0 : cwd ≠ []) (hcn : ∀ b ∈ cwd, FileName b) (hcwd : env.cwd = inDir cwd)
    (r : Str) (hr : FileName r) (hnum : ∃ ch ∈ r, env.isNumeric ch = false)
    (s : Str) (hout : ("out_path", .str s) ∈ kw) (hno : ¬ t <:+: s)
    (hsr : s = "~/".toList ++ r ∨ s = "~/".toList ++ r ++ ['/'])
    (hex : env.pathExists ("~/".toList ++ r ++ '/' :: t ++ ['/']) = false) :
    c "out_path" = .str (inDir (home ++ [r, t])) ∧
    (∀ d ∈ cfgFields, "_out".toList <:+ d.name.toList → ∀ pre b, FileName b →
      (pre = [] ∨ pre.getLast? = some '/') → Setting kw d.name (.str (pre ++ b)) →
      env.pathExists (pre ++ b) = false → c d.name = .str (inDir (home ++ [r, t, b]))) ∧
    (NotGiven kw "figs_path" →
      ∃ q, c "figs_path" = .str q ∧ SameDir q (inDir (cwd ++ ["~".toList, "figures".toList]))) := by
  obtain ⟨c0, c4, c5, n', md, pd, out, st⟩ := makeCfg_steps h
  have := seed_of_steps st h hs
  subst this
  have hf := seedText_fileName ht
  obtain ⟨s', v, e1, ho⟩ := st.out_str
  rw [st.setting hnd (Or.inl hout)] at e1
  cases e1
  rw [← seedText_iff.1 ht] at ho
  unfold outPathStr at ho
  have htil : FileName "~".toList := by refine ⟨?_, ?_, ?_, ?_⟩ <;> decide
  have hs0 : s ≠ [] := by rcases hsr with rfl | rfl <;> simp
  have hnp : normPath s = "~/".toList ++ r := by
    have hi : initialSlashes s = 0 := by rcases hsr with rfl | rfl <;> rfl
    have hsp : splitSlash s = ["~".toList, r] ∨ splitSlash s = ["~".toList, r, []] := by
      rcases hsr with rfl | rfl
      · left
        show splitSlash ("~".toList ++ '/' :: r) = _
        rw [splitSlash_append, splitSlash_noSlash hr.2.1, splitSlash_noSlash htil.2.1]; rfl
      · right
        show splitSlash ("~".toList ++ '/' :: (r ++ '/' :: [])) = _
        rw [splitSlash_append, splitSlash_append, splitSlash_noSlash hr.2.1, splitSlash_noSlash htil.2.1]; rfl
    have hnc : normComps false [] (splitSlash s) = ["~".toList, r] := by
      have h1 : normComps false [] ["~".toList, r] = ["~".toList, r] := by
        rw [normComps_cons, if_neg (by decide), if_pos (.inl (by decide)), normComps_cons,
          if_neg (by rintro (e | e); exacts [hr.1 e, hr.2.2.1 e]), if_pos (.inl hr.2.2.2)]
        rfl
      rcases hsp with hsp | hsp
      · rw [hsp, h1]
      · rw [hsp, normComps_cons, if_neg (by decide), if_pos (.inl (by decide)), normComps_cons,
          if_neg (by rintro (e | e); exacts [hr.1 e, hr.2.2.1 e]), if_pos (.inl hr.2.2.2)]
        rfl
    unfold normPath
    rw [if_neg hs0, hi]
    simp only [ne_eq, not_true_eq_false, decide_false, hnc]
    rfl
  have hnb : numericBase env s = false := by
    unfold numericBase
    rw [hnp, baseName_append (Or.inr (by decide)) hr.2.1]
    have : r.all env.isNumeric = false := by
      obtain ⟨ch, hch, hn⟩ := hnum
      rw [List.all_eq_false]
      exact ⟨ch, hch, by simp [hn]⟩
    rw [this, Bool.and_false]
  have hout' : out = "~/".toList ++ r ++ '/' :: t ++ ['/'] := by
    rw [ho, if_neg hs0, if_neg hno, hnb, if_neg (by simp)]
    congr 1
    unfold pathJoin
    rw [if_neg (fileName_head hf)]
    rcases hsr with rfl | rfl
    · have hl : ("~/".toList ++ r).getLast? ≠ some '/' := by
        rw [List.getLast?_append_of_ne_nil _ hr.1]
        intro e
        exact hr.2.1 (List.mem_of_getLast? e)
      rw [if_neg (by rintro (e | e); exacts [hs0 e, hl e])]
    · rw [if_pos (.inr (getLast?_append_singleton _))]
      simp
  have hn : ∀ b ∈ home ++ [r, t], FileName b := by
    intro b hb
    rcases List.mem_append.1 hb with hb | hb
    · exact hhn b hb
    · simp only [List.mem_cons, List.not_mem_nil, or_false] at hb
      rcases hb with rfl | rfl
      · exact hr
      · exact hf
  have hexp : ∀ y : Str, expandUser env.userHome ('~' :: '/' :: y) = inDir home ++ '/' :: y := by
    intro y
    unfold expandUser
    simp only [List.takeWhile_cons, List.dropWhile_cons, bne_self_eq_false, Bool.false_eq_true, if_false, hhome]
    have : rstripSlash (inDir home) = inDir home := by
      obtain ⟨a, x, e⟩ := List.eq_nil_or_concat home |>.resolve_left hh0
      rw [e, List.concat_eq_append, inDir_snoc]
      have hx := hhn x (by rw [e]; simp)
      have := rstripSlash_append (x := inDir a ++ ['/']) hx.1 hx.2.1
      simpa using this
    rw [this, if_neg (by simp)]
  refine ⟨?_, ?_, ?_⟩
  · rw [st.path_value (by simp) (by rw [st.c4_out, hout']), if_neg (by rw [hex]; simp)]
    have : "~/".toList ++ r ++ '/' :: t ++ ['/'] = '~' :: '/' :: (r ++ '/' :: t ++ ['/']) := by simp
    rw [this, hexp]
    have e2 : inDir home ++ '/' :: (r ++ '/' :: t ++ ['/']) = inDir (home ++ [r, t]) ++ List.replicate 1 '/' := by
      simp [inDir]
    rw [e2, (abs_inDir env.cwd env.userHome (by simp) hn (comps_inDir_slash hn 1) (by simp)).1]
  · intro d hd hsuf pre b hb hpre hset hexb
    have hnm : d.name ∉ ["seed", "run_date", "run_time", "data_path", "out_path", "figs_path"] := by
      intro hm
      have : ∀ f ∈ ["seed", "run_date", "run_time", "data_path", "out_path", "figs_path"],
          "_out".toList.isSuffixOf f.toList = false := by decide +kernel
      have := this _ hm
      rw [List.isSuffixOf_iff_suffix.2 hsuf] at this
      cases this
    have hin : "_in".toList.isSuffixOf d.name.toList = false := by
      cases e : "_in".toList.isSuffixOf d.name.toList with
      | false => rfl
      | true =>
        have : ∀ d ∈ cfgFields, ¬ ("_out".toList.isSuffixOf d.name.toList = true ∧
          "_in".toList.isSuffixOf d.name.toList = true) := by decide +kernel
        exact absurd ⟨List.isSuffixOf_iff_suffix.2 hsuf, e⟩ (this d hd)
    have := (st.file_value hd hnm (out_type d hd hsuf) (st.setting hnd hset)).2 hin
      (List.isSuffixOf_iff_suffix.2 hsuf)
    rw [this, hexb, if_neg (by simp), baseName_append hpre hb.2.1, fileIn, hout']
    have j : pathJoin ("~/".toList ++ r ++ '/' :: t ++ ['/']) b = '~' :: '/' :: (r ++ '/' :: t ++ '/' :: b) := by
      unfold pathJoin
      rw [if_neg (fileName_head hb), if_pos (.inr (getLast?_append_singleton _))]
      simp
    rw [j, hexp]
    have e2 : inDir home ++ '/' :: (r ++ '/' :: t ++ '/' :: b) =
        inDir (home ++ [r, t]) ++ (List.replicate 0 '/' ++ '/' :: b) := by
      simp [inDir]
    rw [e2, (abs_inDir env.cwd env.userHome (ms := home ++ [r, t] ++ [b]) (by simp) hn
      (by rw [← List.append_assoc]; exact comps_file hn 0 hb) (by simp)).1]
    simp
  · intro hng
    have hfig : FileName "figures".toList := by refine ⟨?_, ?_, ?_, ?_⟩ <;> decide
    have hcT : ∀ b ∈ cwd ++ ["~".toList], FileName b := by
      intro b hb
      rcases List.mem_append.1 hb with hb | hb
      · exact hcn b hb
      · rw [List.mem_singleton.1 hb]; exact htil
    have hcF : ∀ b ∈ cwd ++ ["~".toList, "figures".toList], FileName b := by
      intro b hb
      rcases List.mem_append.1 hb with hb | hb
      · exact hcn b hb
      · simp only [List.mem_cons, List.not_mem_nil, or_false] at hb
        rcases hb with rfl | rfl
        · exact htil
        · exact hfig
    have hcA : ∀ b ∈ cwd ++ ["~".toList] ++ [r, t], FileName b := by
      intro b hb
      rcases List.mem_append.1 hb with hb | hb
      · exact hcT b hb
      · simp only [List.mem_cons, List.not_mem_nil, or_false] at hb
        rcases hb with rfl | rfl
        · exact hr
        · exact hf
    have h4 : c4 "figs_path" = .str (inDir (cwd ++ ["~".toList, "figures".toList]) ++ List.replicate 1 '/') := by
      rw [st.c4_figs, st.setting hnd (notGiven_setting hng (by decide +kernel)), if_neg (by simp), hout']
      have j : pathJoin (pathJoin (pathJoin ("~/".toList ++ r ++ '/' :: t ++ ['/']) "..".toList) "..".toList)
          "figures".toList = '~' :: '/' :: (r ++ '/' :: t ++ '/' :: ("..".toList ++ '/' :: ("..".toList ++ '/' :: "figures".toList))) := by
        have j1 : pathJoin ("~/".toList ++ r ++ '/' :: t ++ ['/']) "..".toList =
            ("~/".toList ++ r ++ '/' :: t) ++ '/' :: "..".toList := by
          unfold pathJoin
          rw [if_neg (by decide), if_pos (.inr (getLast?_append_singleton _))]
          simp
        have j2 : ∀ (x s : Str), s.head? ≠ some '/' → pathJoin (x ++ '/' :: "..".toList) s = x ++ '/' :: "..".toList ++ '/' :: s := by
          intro x s hs
          unfold pathJoin
          rw [if_neg hs, if_neg]
          rintro (e | e)
          · simp at e
          · simp at e
        rw [j1, j2 _ _ (by decide)]
        have := j2 ("~/".toList ++ r ++ '/' :: t ++ '/' :: "..".toList) "figures".toList (by decide)
        rw [this]
        simp
      rw [j]
      have a : absPath env.cwd ('~' :: '/' :: (r ++ '/' :: t ++ '/' :: ("..".toList ++ '/' :: ("..".toList ++ '/' :: "figures".toList)))) =
          absPath env.cwd (inDir (cwd ++ ["~".toList] ++ [r, t]) ++ (List.replicate 0 '/' ++
            '/' :: ("..".toList ++ '/' :: ("..".toList ++ '/' :: "figures".toList)))) := by
        unfold absPath
        rw [if_neg (by simp), if_pos (by rw [List.head?_append, inDir_head (by simp)]; rfl), hcwd,
          inDir_join hc0 hcn (by simp)]
        simp [inDir]
      rw [a, (abs_inDir env.cwd env.userHome (ms := cwd ++ ["~".toList] ++ ["figures".toList]) (by simp) hcA
        (by rw [← List.append_assoc]; exact comps_up hcT hr hf hfig 0) (by simp)).1]
      simp
    refine ⟨_, st.path_value (by simp) h4, ?_⟩
    split
    · exact ⟨1, rfl⟩
    · exact ⟨0, by rw [(abs_inDir _ _ (by simp) hcF (comps_inDir_slash hcF 1) (by simp)).2]; simp⟩


/-- **C138 (refuted)** the two examples of the documentation together: after a run with the configuration of the
README, `plot_stratigraphy` looks in `moonpies/<seed>` of the home directory, where the run did not put anything. -/
theorem C138_readme_refuted (env env' : Env) (c : CfgVals)
    (h : makeCfg env [("out_path", .str "~/Downloads/".toList)] = .ok c)
    (hdraw : 1 ≤ env.draw ∧ env.draw ≤ 99998)
    (n : Int) (hs : c "seed" = .int n) (t : Str) (ht : SeedText n t)
    (home cwd : List Str) (hh0 : home ≠ []) (hhn : ∀ b ∈ home, FileName b)
    (hhome : env.userHome ['~'] = some (inDir home))
    (hc0 : cwd ≠ []) (hcn : ∀ b ∈ cwd, FileName b) (hcwd : env.cwd = inDir cwd)
    (hnum : env.isNumeric 'D' = false) (hno : ¬ t <:+: "~/Downloads/".toList)
    (hex : env.pathExists ("~/Downloads/".toList ++ t ++ ['/']) = false)
    (more : List (List (String × PyVal))) :
    ∃ c', plotCfg env' (toDict c :: more) = .ok c' ∧ ∀ trap, '/' ∉ trap →
      locate env.cwd (pathJoin (strVal (c "out_path")) (stratName trap)) =
        home ++ ["Downloads".toList, t, stratName trap] ∧
      stratFile c' trap = .ok (home ++ ["moonpies".toList, t, stratName trap]) := by
  have hD : FileName "Downloads".toList := by refine ⟨?_, ?_, ?_, ?_⟩ <;> decide
  have hM : FileName "moonpies".toList := by refine ⟨?_, ?_, ?_, ?_⟩ <;> decide
  have hnd : (([("out_path", PyVal.str "~/Downloads/".toList)] : List (String × PyVal)).map (·.1)).Nodup := by simp
  obtain ⟨ho, -⟩ := C138_home env _ c h hnd n hs t ht home cwd hh0 hhn hhome hc0 hcn hcwd _ hD
    ⟨'D', by decide, hnum⟩ _ (by simp) hno (.inr rfl) (by simpa using hex)
  have hrun : c "run_name" = .str "moonpies".toList :=
    run_name_value h hnd (.inr ⟨by simp, by decide +kernel⟩)
  obtain ⟨c', h1, h2⟩ := C138_looks env env' _ c h hdraw home hhn _ t _ hD hM n hs ht hrun
    ⟨_, ho, 0, by simp⟩ more
  exact ⟨c', h1, fun trap htr => ⟨(h2 trap htr).2.1, (h2 trap htr).1⟩⟩

/-! ## Which runs share a directory -/

/-- **C138** runs without an `out_path` share a directory exactly if they are started in the same directory, on
the same date, with the same run name and the same seed. -/
theorem C138_shared (env env' : Env) (kw kw' : List (String × PyVal)) (c c' : CfgVals)
    (h : makeCfg env kw = .ok c) (h' : makeCfg env' kw' = .ok c')
    (hnd : (kw.map (·.1)).Nodup) (hnd' : (kw'.map (·.1)).Nodup)
    (cwd cwd' : List Str) (hc0 : cwd ≠ []) (hc0' : cwd' ≠ []) (hcn : ∀ b ∈ cwd, FileName b)
    (hcn' : ∀ b ∈ cwd', FileName b) (hcwd : env.cwd = inDir cwd) (hcwd' : env'.cwd = inDir cwd')
    (hdate : FileName env.date) (hdate' : FileName env'.date) (r r' : Str) (hr : FileName r) (hr' : FileName r')
    (hrun : Setting kw "run_name" (.str r)) (hrun' : Setting kw' "run_name" (.str r'))
    (hout : NotGiven kw "out_path") (hout' : NotGiven kw' "out_path") (n n' : Int)
    (hs : c "seed" = .int n) (hs' : c' "seed" = .int n') :
    ((∃ p, (∃ q, c "out_path" = .str q ∧ SameDir q p) ∧ ∃ q, c' "out_path" = .str q ∧ SameDir q p) ↔
      cwd = cwd' ∧ env.date = env'.date ∧ r = r' ∧ n = n') := by
  obtain ⟨⟨q, hq, hqd⟩, -⟩ := C91_default env kw c h hnd cwd hc0 hcn hcwd hdate r hr hrun hout n hs _ (seedText_fmt n)
  obtain ⟨⟨q', hq', hqd'⟩, -⟩ := C91_default env' kw' c' h' hnd' cwd' hc0' hcn' hcwd' hdate' r' hr' hrun' hout' n'
    hs' _ (seedText_fmt n')
  have hall : ∀ {cwd : List Str} {d r : Str} {n : Int}, (∀ b ∈ cwd, FileName b) → FileName d → FileName r →
      ∀ b ∈ cwd ++ ["out".toList, d] ++ [r, fmtSeed n], FileName b := by
    intro cwd d r n h1 h2 h3 b hb
    simp only [List.append_assoc, List.cons_append, List.nil_append, List.mem_append, List.mem_cons,
      List.not_mem_nil, or_false] at hb
    rcases hb with hb | rfl | rfl | rfl | rfl
    · exact h1 b hb
    · refine ⟨?_, ?_, ?_, ?_⟩ <;> decide
    · exact h2
    · exact h3
    · exact seedText_fileName (seedText_fmt n)
  constructor
  · rintro ⟨p, ⟨q1, e1, k1, rfl⟩, q2, e2, k2, rfl⟩
    rw [hq] at e1
    rw [hq'] at e2
    cases e1
    cases e2
    obtain ⟨i, hi⟩ := hqd
    obtain ⟨j, hj⟩ := hqd'
    have n1 := pathNames_inDir (hall (n := n) hcn hdate hr) i
    have n2 := pathNames_inDir (hall (n := n') hcn' hdate' hr') j
    rw [← hi] at n1
    rw [← hj] at n2
    have hp : ∀ k, pathNames (p ++ List.replicate k '/') = pathNames p := by
      intro k
      induction k with
      | zero => simp
      | succ k ih =>
        rw [List.replicate_succ', ← List.append_assoc, ← ih]
        unfold pathNames
        rw [show (p ++ List.replicate k '/' ++ ['/']) = (p ++ List.replicate k '/') ++ '/' :: [] from rfl,
          splitSlash_append, List.filter_append]
        simp [splitSlash]
    rw [hp] at n1 n2
    have e := n1.symm.trans n2
    simp only [List.append_assoc, List.cons_append, List.nil_append] at e
    obtain ⟨e1, e2⟩ := List.append_inj' e (by simp)
    simp only [List.cons.injEq, and_true, true_and] at e2
    exact ⟨e1, e2.1, e2.2.1, fmtSeed_inj e2.2.2⟩
  · rintro ⟨rfl, e, rfl, rfl⟩
    refine ⟨_, ⟨q, hq, hqd⟩, q', hq', ?_⟩
    rw [e]
    exact hqd'

/-! ## The configuration file of the quickstart guide -/

/-- **C138** an argument changes only its own parameter: with other arguments for the fields in `S`, neither
mode nor pole, every other parameter that is not recomputed stays. -/
theorem C138_only (env : Env) (kw kw' : List (String × PyVal)) (c c' : CfgVals) (S : List String)
    (h : makeCfg env kw = .ok c) (h' : makeCfg env kw' = .ok c') (hm : "mode" ∉ S) (hp : "pole" ∉ S)
    (hsame : ∀ f, f ∉ S → kw'.find? (fun kv => decide (kv.1 = f)) = kw.find? (fun kv => decide (kv.1 = f))) :
    ∀ d ∈ cfgFields, ¬ Recomputed d.name → d.name ∉ S → c' d.name = c d.name := by
  intro d hd hrec hS
  obtain ⟨c0, c4, c5, m, md, pd, out, st⟩ := makeCfg_steps h
  obtain ⟨c0', c4', c5', m', md', pd', out', st'⟩ := makeCfg_steps h'
  have e0 : ∀ f, f ∉ S → c0' f = c0 f := by
    intro f hf
    have i := st.init
    have i' := st'.init
    unfold initFields at i i'
    split at i
    · split at i'
      · cases i
        cases i'
        simp only [hsame f hf]
      · cases i'
    · cases i
  have e1 := st.mode
  have e2 := st.pole
  rw [← e0 "mode" hm, st'.mode, Except.ok.injEq] at e1
  rw [← e0 "pole" hp, st'.pole, Except.ok.injEq] at e2
  have k := st.plain hd ((isPlain_iff _).2 hrec)
  have k' := st'.plain hd ((isPlain_iff _).2 hrec)
  rw [e1, e2, fill_congr _ _ _ _ (fill_congr _ _ _ _ (e0 _ hS)), k, Except.ok.injEq] at k'
  exact k'.symm

/-- The configuration file of the quickstart guide (docs/quickstart.md:56-61). -/
def quickText : Str :=
  "# File named \"my_config.py\"\n{\n   'run_name': 'no_solarwind_dense_impactors',\n   'solar_wind_ice': False,\n   'impactor_density': 2000  # [kg m^-3]\n}\n".toList

/-- What it spells. -/
def quickArgs : List (String × PyVal) := [("run_name", .str "no_solarwind_dense_impactors".toList),
  ("solar_wind_ice", .bool false), ("impactor_density", .int 2000)]

theorem bodyText_plain (q : Char) : ∀ s : Str, (∀ c ∈ s, c ≠ q ∧ c ≠ '\\' ∧ c ≠ '\n') → BodyText q s s
  | [], _ => .nil
  | c :: s, h => .cons (.plain c (h c (by simp))) (bodyText_plain q s fun x hx => h x (by simp [hx]))

theorem quick_text (rnd : ℚ → FloatVal) : CfgFile rnd quickArgs quickText := by
  have q : ∀ s : Str, (∀ c ∈ s, c ≠ '\'' ∧ c ≠ '\\' ∧ c ≠ '\n') → PiecesText s ('\'' :: (s ++ ['\''])) :=
    fun s h => .one (.mk (.inl rfl) (bodyText_plain _ s h))
  have g : Gap [' '] := .blank (by simp) .nil
  have gn : Gap ['\n', ' ', ' ', ' '] := .blank (by simp) (.blank (by simp) (.blank (by simp) g))
  have gc : Gap (' ' :: ' ' :: '#' :: (" [kg m^-3]".toList ++ '\n' :: [])) :=
    .blank (by simp) (.blank (by simp) (.comment (by decide +kernel) .nil))
  have n : NatText 2000 "2000".toList := ⟨[2, 0, 0, 0], by simp, by decide +kernel, by decide, by decide⟩
  have w := Writes.dict (rnd := rnd) (by decide +kernel) gn (.entriesCons (q "run_name".toList (by decide +kernel)) .nil g
    (.str (q "no_solarwind_dense_impactors".toList (by decide +kernel))) .nil gn
    (.entriesCons (q "solar_wind_ice".toList (by decide +kernel)) .nil g .false .nil gn
      (.entriesOne (q "impactor_density".toList (by decide +kernel)) .nil g (.int n) gc)))
  refine ⟨_, _, ['\n'], ?_, .inr ⟨.comment (t := " File named \"my_config.py\"".toList) (by decide +kernel) .nil, by decide +kernel⟩,
    w, .inl (.blank (by simp) .nil), by decide +kernel⟩
  decide +kernel

theorem quick_read (rnd : ℚ → FloatVal) (env : Env) (seed : Option Int) :
    readCfgText rnd env quickText seed = readCustomCfg env (some quickArgs) seed :=
  C95_config rnd env quickArgs quickText seed (quick_text rnd)

theorem reads_quick {c c' : CfgVals} {r : RunCfg} (hr : Reads c r)
    (hs : c' "seed" = c "seed") (k1 : c' "solar_wind_ice" = .bool false)
    (k2 : c' "impactor_density" = .float 2000)
    (h : ∀ f ∈ runFields, f ∉ ["solar_wind_ice", "impactor_density"] → c' f = c f) :
    Reads c' { r with solar_wind_ice := false, impactor_density := 2000 } := by
  simp only [runFields, List.forall_mem_cons] at h
  obtain ⟨h0, h1, h2, h3, h4, h5, h6, h7, h8, h9, h10, h11, h12, h13, h14, h15, h16, h17, h18, h19,
    h20, h21, h22, h23, h24, h25, h26, h27, h28, h29, h30, h31, h32, h33, h34, h35, h36, h37,
    h38, h39, h40, h41, h42, h43, h44, h45, h46, h47, h48, h49, h50, h51, h52, h53, h54, h55,
    h56, h57, h58, h59, h60, h61, h62, h63, h64, h65, h66, h67, h68, h69, h70, h71, h72, h73,
    h74, h75, h76, h77, h78, h79, h80, -⟩ := h
  constructor
  · rw [hs]; exact hr.seed
  · rw [h0 (by decide)]; exact hr.mode
  · rw [h1 (by decide)]; exact hr.strat_after_age
  · rw [k1]; rfl
  · rw [h3 (by decide)]; exact hr.ballistic_hop_moores
  · rw [h4 (by decide)]; exact hr.ejecta_basins
  · rw [h5 (by decide)]; exact hr.impact_ice_basins
  · rw [h6 (by decide)]; exact hr.impact_ice_comets
  · rw [h7 (by decide)]; exact hr.use_volc_dep_effcy
  · rw [h8 (by decide)]; exact hr.ballistic_sed
  · rw [h9 (by decide)]; exact hr.impact_gardening_costello
  · rw [h10 (by decide)]; exact hr.is_comet
  · rw [h11 (by decide)]; exact hr.solar_wind_mode
  · rw [h12 (by decide)]; exact hr.volc_mode
  · rw [h13 (by decide)]; exact hr.faint_young_sun
  · rw [h14 (by decide)]; exact hr.neukum_pf_new
  · rw [h15 (by decide)]; exact hr.mixing_ratio_petro
  · rw [h16 (by decide)]; exact hr.basin_ejecta_temp_warm
  · rw [h17 (by decide)]; exact hr.coldtrap_names
  · rw [h18 (by decide)]; exact hr.timestart
  · rw [h19 (by decide)]; exact hr.timeend
  · rw [h20 (by decide)]; exact hr.timestep
  · rw [h21 (by decide)]; exact hr.ballistic_hop_effcy
  · rw [h22 (by decide)]; exact hr.volc_dep_effcy
  · rw [h23 (by decide)]; exact hr.coldtrap_area_H2O
  · rw [h24 (by decide)]; exact hr.coldtrap_area_CO2
  · rw [h25 (by decide)]; exact hr.ice_density
  · rw [h26 (by decide)]; exact hr.simple2complex
  · rw [h27 (by decide)]; exact hr.complex2peakring
  · rw [h28 (by decide)]; exact hr.rad_moon
  · rw [h29 (by decide)]; exact hr.grav_moon
  · rw [h30 (by decide)]; exact hr.sa_moon
  · rw [h31 (by decide)]; exact hr.impact_angle
  · rw [h32 (by decide)]; exact hr.target_density
  · rw [k2]; rfl
  · rw [h34 (by decide)]; exact hr.ej_thickness_exp
  · rw [h35 (by decide)]; exact hr.ej_threshold
  · rw [h36 (by decide)]; exact hr.basin_ej_threshold
  · rw [h37 (by decide)]; exact hr.thickness_min
  · rw [h38 (by decide)]; exact hr.ice_erosion_rate
  · rw [h39 (by decide)]; exact hr.neukum_pf_a_2001
  · rw [h40 (by decide)]; exact hr.neukum_pf_a_1983
  · rw [h41 (by decide)]; exact hr.impact_regimes
  · rw [h42 (by decide)]; exact hr.mm_mass_rate
  · rw [h43 (by decide)]; exact hr.ctype_frac
  · rw [h44 (by decide)]; exact hr.ctype_hydrated
  · rw [h45 (by decide)]; exact hr.hydrated_wt_pct
  · rw [h46 (by decide)]; exact hr.impact_mass_retained
  · rw [h47 (by decide)]; exact hr.brown_c0
  · rw [h48 (by decide)]; exact hr.brown_d0
  · rw [h49 (by decide)]; exact hr.earth_moon_ratio
  · rw [h50 (by decide)]; exact hr.impact_speed_mean
  · rw [h51 (by decide)]; exact hr.impact_speed_sd
  · rw [h52 (by decide)]; exact hr.escape_vel
  · rw [h53 (by decide)]; exact hr.comet_ast_frac
  · rw [h54 (by decide)]; exact hr.comet_density
  · rw [h55 (by decide)]; exact hr.comet_hydrated_wt_pct
  · rw [h56 (by decide)]; exact hr.comet_mass_retained
  · rw [h57 (by decide)]; exact hr.comet_speed_min
  · rw [h58 (by decide)]; exact hr.comet_speed_max
  · rw [h59 (by decide)]; exact hr.jfc_speed_mean
  · rw [h60 (by decide)]; exact hr.jfc_speed_sd
  · rw [h61 (by decide)]; exact hr.jfc_frac
  · rw [h62 (by decide)]; exact hr.lpc_speed_mean
  · rw [h63 (by decide)]; exact hr.lpc_speed_sd
  · rw [h64 (by decide)]; exact hr.lpc_frac
  · rw [h65 (by decide)]; exact hr.volc_early
  · rw [h66 (by decide)]; exact hr.volc_late
  · rw [h67 (by decide)]; exact hr.volc_early_pct
  · rw [h68 (by decide)]; exact hr.volc_late_pct
  · rw [h69 (by decide)]; exact hr.volc_total_vol
  · rw [h70 (by decide)]; exact hr.volc_ice_ppm
  · rw [h71 (by decide)]; exact hr.volc_magma_density
  · rw [h72 (by decide)]; exact hr.ballistic_sed_frac_lost
  · rw [h73 (by decide)]; exact hr.mixing_ratio_a
  · rw [h74 (by decide)]; exact hr.mixing_ratio_b
  · rw [h75 (by decide)]; exact hr.polar_ejecta_temp_init
  · rw [h76 (by decide)]; exact hr.basin_ejecta_temp_init_warm
  · rw [h77 (by decide)]; exact hr.basin_ejecta_temp_init_cold
  · rw [h78 (by decide)]; exact hr.overturn_depth_present
  · rw [h79 (by decide)]; exact hr.overturn_ancient_slope
  · rw [h80 (by decide)]; exact hr.overturn_ancient_t0
  · exact hr.species

/-- **C138** the configuration file of the quickstart guide is read as written: run with any seed it gives the
published default run, without solar wind and with impactors of 2000 kg/m³, under the given name. -/
theorem C138_quickstart (rnd : ℚ → FloatVal) (env : Env) (n : Int) (hn : n ≠ 0) :
    ∃ c, readCfgText rnd env quickText (some n) = .ok c ∧
      c "run_name" = .str "no_solarwind_dense_impactors".toList ∧
      RunCfg.ofVals c = some { RunCfg.default n with solar_wind_ice := false, impactor_density := 2000 } := by
  have hd : (∃ d ∈ cfgFields, d.name = "run_name" ∧ d.type = .str) ∧
      (∃ d ∈ cfgFields, d.name = "solar_wind_ice" ∧ d.type = .bool) ∧
      (∃ d ∈ cfgFields, d.name = "impactor_density" ∧ d.type = .float) ∧
      ∃ d ∈ cfgFields, d.name = "seed" ∧ d.type = .int := by decide +kernel
  obtain ⟨⟨d1, a1, b1, c1⟩, ⟨d2, a2, b2, c2⟩, ⟨d3, a3, b3, c3⟩, ⟨d4, a4, b4, c4⟩⟩ := hd
  have hset : PyDict.set quickArgs "seed" (.int n) = quickArgs ++ [("seed", .int n)] := by rfl
  have hbig : (2000 : Int).natAbs < 2 ^ 1024 :=
    lt_of_lt_of_le (by norm_num : 2000 < 2 ^ 11) (Nat.pow_le_pow_right (by norm_num) (by norm_num))
  have hg : GoodArgs (PyDict.set quickArgs "seed" (.int n)) := by
    rw [hset]
    refine ⟨by show ["run_name", "solar_wind_ice", "impactor_density", "seed"].Nodup; decide, ?_, ?_, ?_⟩
    · intro kv hkv
      simp only [quickArgs, List.cons_append, List.nil_append, List.mem_cons, List.not_mem_nil, or_false] at hkv
      rcases hkv with rfl | rfl | rfl | rfl
      · exact ⟨d1, a1, b1, .inl (c1 ▸ .has (.str _))⟩
      · exact ⟨d2, a2, b2, .inl (c2 ▸ .has (.bool _))⟩
      · exact ⟨d3, a3, b3, .inl (c3 ▸ .float _ hbig)⟩
      · exact ⟨d4, a4, b4, .inl (c4 ▸ .has (.int _))⟩
    · intro v hv
      simp [quickArgs] at hv
    · intro v hv
      simp [quickArgs] at hv
  obtain ⟨c, hc, -⟩ := C79_accepted env _ hg
  obtain ⟨cs, hcs, hr⟩ := (C79_standard env n hn).1
  have hcs' : makeCfg env [("seed", .int n)] = .ok cs := by
    unfold makeCfg at hcs ⊢
    rw [init_std]
    exact hcs
  have hnr : ∀ f, isPlain f = true → ¬ Recomputed f := fun f h => (isPlain_iff f).1 h
  have g1 := given_field hc hg.nodup a1 (b1 ▸ hnr "run_name" (by decide +kernel))
    (v := .str "no_solarwind_dense_impactors".toList) (by rw [b1, hset]; simp [quickArgs]) (by simp)
  have g2 := given_field hc hg.nodup a2 (b2 ▸ hnr "solar_wind_ice" (by decide +kernel)) (v := .bool false)
    (by rw [b2, hset]; simp [quickArgs]) (by simp)
  have g3 := given_field hc hg.nodup a3 (b3 ▸ hnr "impactor_density" (by decide +kernel)) (v := .int 2000)
    (by rw [b3, hset]; simp [quickArgs]) (by simp)
  have g3' : castTo env .float (.int 2000) = .ok (.float 2000) := by
    unfold castTo pyFloat
    simp only []
    rw [if_pos hbig]
    norm_num
  unfold enforceOne at g1 g2 g3
  rw [c1] at g1
  rw [c2] at g2
  rw [c3, if_neg (by simp [isInstance]), g3', Except.ok.injEq, b3] at g3
  simp only [isInstance, b1, b2] at g1 g2
  have hseed : c "seed" = cs "seed" := by
    rw [C59_seed env quickArgs n hn c (by decide) hc, std_seed hn hcs]
  refine ⟨c, by rw [quick_read]; exact hc, by simpa using g1.symm, ?_⟩
  refine of_reads (reads_quick (reads_of hr) hseed (by simpa using g2.symm) g3.symm fun f hf hS => ?_)
  obtain ⟨d, hd, rfl, hp⟩ := runFields_plain f hf
  have hrun : d.name ≠ "run_name" := by
    intro e
    rw [e] at hf
    revert hf
    decide +kernel
  refine C138_only env _ _ cs c ["run_name", "solar_wind_ice", "impactor_density"] hcs' hc (by decide) (by decide)
    ?_ d hd (hnr _ hp) (by
      simp only [List.mem_cons, List.not_mem_nil, or_false, not_or] at hS ⊢
      exact ⟨hrun, hS⟩)
  intro f hf
  simp only [List.mem_cons, List.not_mem_nil, or_false, not_or] at hf
  rw [hset, quickArgs, List.cons_append, List.cons_append, List.cons_append, List.nil_append,
    List.find?_cons_of_neg (by simpa using fun e => hf.1 e.symm),
    List.find?_cons_of_neg (by simpa using fun e => hf.2.1 e.symm),
    List.find?_cons_of_neg (by simpa using fun e => hf.2.2 e.symm)]

/-! ## The names of the output files -/

/-- **C138 (refuted)** the README promises a file `config_<run_name>.py` and a table `ej_columns_mpies.csv`.
Neither is written, unless the run is called `moonpies_v1.1.1`: those names are as free or taken after the run
as before. -/
theorem C138_names_refuted {α : Type} (env : Env) (fs : FS α) (kw : List (String × PyVal)) (c : CfgVals)
    (strats : List (Str × α)) (dir : Loc) (h : SaveReady env fs kw c strats dir)
    (a b d : α) (grids : α × α) (R : Str) (hR : R ≠ "moonpies_v1.1.1".toList) :
    ∃ fs', (formatSaveOutputs env.cwd fs (saveCfgOf c) a b d strats grids).2 = .ok fs' ∧
      fs'.file (dir ++ ["config_".toList ++ R ++ ".py".toList]) = fs.file (dir ++ ["config_".toList ++ R ++ ".py".toList]) ∧
      fs'.file (dir ++ ["ej_columns_mpies.csv".toList]) = fs.file (dir ++ ["ej_columns_mpies.csv".toList]) := by
  obtain ⟨fs', h1, -, -, -, -, -, -, h2⟩ := C60_saved env fs kw c strats dir h a b d grids
  have hne : ∀ x y : Str, x ≠ y → dir ++ [x] ≠ dir ++ [y] := by
    intro x y hxy e
    exact hxy (by simpa using e)
  refine ⟨fs', h1, h2 _ (hne _ _ ?_) (hne _ _ ?_) (hne _ _ ?_) (fun s _ => hne _ _ ?_),
    h2 _ (hne _ _ (by decide)) (hne _ _ (by decide)) (hne _ _ (by decide)) (fun s _ => hne _ _ ?_)⟩
  · intro e
    have : "config_".toList ++ R ++ ".py".toList = "config_".toList ++ "moonpies_v1.1.1".toList ++ ".py".toList := e
    rw [List.append_cancel_right_eq, List.append_cancel_left_eq] at this
    exact hR this
  · intro e
    have := congrArg List.head? e
    simp at this
  · intro e
    have := congrArg List.head? e
    simp at this
  · intro e
    have := congrArg List.head? e
    simp [stratName] at this
  · intro e
    have := congrArg List.head? e
    simp [stratName] at this

/-- Such a run: it is called `moonpies`. -/
example : SaveReady (worldOf env0 fs0) fs0 [("write", .bool true)] cfg0
    [("Faustini".toList, 3), ("Haworth".toList, 4)] dir0 ∧ cfg0 "run_name" = .str "moonpies".toList :=
  ⟨ready0, by decide +kernel⟩

/-- The environment of the examples, with a home directory. -/
def envHome : Env := { env0 with userHome := fun s => if s = ['~'] then some "/home/u".toList else none,
                                  isNumeric := fun ch => ch.isDigit }

/-- The run of the README satisfies the hypotheses of `C138_home`, `C138_readme_refuted` and `C138_looks`. -/
example : ∃ c, makeCfg envHome [("out_path", .str "~/Downloads/".toList)] = .ok c ∧
    c "seed" = .int 777 ∧ SeedText 777 "00777".toList ∧ envHome.userHome ['~'] = some (inDir ["home".toList, "u".toList]) ∧
    envHome.isNumeric 'D' = false ∧ ¬ "00777".toList <:+: "~/Downloads/".toList ∧
    envHome.pathExists ("~/Downloads/".toList ++ "00777".toList ++ ['/']) = false ∧
    c "out_path" = .str "/home/u/Downloads/00777".toList ∧
    c "config_py_out" = .str "/home/u/Downloads/00777/config_moonpies_v1.1.1.py".toList := by
  have h : (makeCfg envHome [("out_path", .str "~/Downloads/".toList)]).map (fun c =>
      (c "seed", c "out_path", c "config_py_out")) = .ok (.int 777, .str "/home/u/Downloads/00777".toList,
        .str "/home/u/Downloads/00777/config_moonpies_v1.1.1.py".toList) := by decide +kernel
  cases hc : makeCfg envHome [("out_path", .str "~/Downloads/".toList)] with
  | error e => rw [hc] at h; cases h
  | ok c =>
    rw [hc] at h
    simp only [Except.map, Except.ok.injEq, Prod.mk.injEq] at h
    refine ⟨c, rfl, h.1, ?_, rfl, by decide, ?_, by decide +kernel, h.2.1, h.2.2⟩
    · have : "00777".toList = fmtSeed 777 := by decide +kernel
      rw [this]
      exact seedText_fmt 777
    · decide +kernel

/-- A run that puts its output in `/data/try`, whose name is `moonpies`: hypotheses of `C138_given_refuted`. -/
example : (makeCfg envHome [("out_path", .str "/data/try".toList)]).map (fun c =>
      (c "seed", c "out_path")) = .ok (.int 777, .str "/data/try/00777".toList) ∧
    inDir (["data".toList] ++ ["try".toList]) = "/data/try".toList ∧
    Setting [("out_path", .str "/data/try".toList)] "run_name" (.str "moonpies".toList) :=
  ⟨by decide +kernel, by decide, .inr ⟨by simp, by decide +kernel⟩⟩

end MoonPIES
