import Verif.Lemmas.Files
import Verif.Props.ConfigPath
import Mathlib.Data.List.Infix

/-!
# C59, C60: files written by a run, and the command line
-/

namespace MoonPIES

open Spec

variable {α : Type}

/-- File name of the stratigraphy table of a cold trap. -/
def Spec.stratName (t : Str) : Str := "strat_".toList ++ t ++ ".csv".toList

/-- Default names of the other files. -/
def Spec.defaultOuts : List (String × Str) := [("config_py_out", "config_moonpies_v1.1.1.py".toList),
  ("ej_t_csv_out", "ej_columns.csv".toList), ("ice_t_csv_out", "ice_columns.csv".toList)]

/-- **C60** nothing is written, and nothing can fail, when both switches are off. -/
theorem C60_off (cwd : Str) (fs : FS α) (cfg : SaveCfg) (a b d : α) (strats : List (Str × α))
    (grids : α × α) (h1 : cfg.write = false) (h2 : cfg.writeNpy = false) :
    formatSaveOutputs cwd fs cfg a b d strats grids = ([], .ok fs) := by
  unfold formatSaveOutputs
  simp [h1, h2]

/-- The outputs saved when `write` is set. -/
def saveItems (cfg : SaveCfg) (a b d : α) (strats : List (Str × α)) : List (Out α × Str) :=
  (.cfg a, cfg.configOut) :: strats.map (fun s => (Out.frame s.2, pathJoin cfg.outPath (stratName s.1))) ++
    [(.frame b, cfg.ejOut), (.frame d, cfg.iceOut)]

theorem formatSave_write (cwd : Str) (fs : FS α) (cfg : SaveCfg) (a b d : α) (strats : List (Str × α))
    (grids : α × α) (h1 : cfg.write = true) (h2 : cfg.writeNpy = false) :
    formatSaveOutputs cwd fs cfg a b d strats grids =
      saveOutputs cwd fs (saveItems cfg a b d strats) := by
  unfold formatSaveOutputs
  simp only [h1, h2, if_true, Bool.false_eq_true, if_false]
  show (match (saveOutputs cwd fs (saveItems cfg a b d strats)).2 with
    | .error e => _ | .ok fs' => _) = _
  cases h : (saveOutputs cwd fs (saveItems cfg a b d strats)).2 with
  | error e =>
    simp only []
    show ((saveOutputs cwd fs (saveItems cfg a b d strats)).1, _) = _
    rw [← h]
  | ok fs' =>
    simp only [List.append_nil]
    show ((saveOutputs cwd fs (saveItems cfg a b d strats)).1, _) = _
    rw [← h]

/-- **C60** whatever happens, also if saving stops at any point, no file other than those named
is touched and directories are only made on the way to them. -/
theorem C60_frame (cwd : Str) (fs : FS α) (cfg : SaveCfg) (a b d : α) (strats : List (Str × α))
    (grids : α × α) (h1 : cfg.write = true) (h2 : cfg.writeNpy = false) :
    ∀ fs', fs' ∈ (formatSaveOutputs cwd fs cfg a b d strats grids).1 ∨
        (formatSaveOutputs cwd fs cfg a b d strats grids).2 = .ok fs' →
      (∀ l, fs.isDir l = true → fs'.isDir l = true) ∧
      (∀ l, fs'.isDir l = true → fs.isDir l = true ∨ ∃ f, (f = cfg.configOut ∨ f = cfg.ejOut ∨
        f = cfg.iceOut ∨ ∃ s ∈ strats, f = pathJoin cfg.outPath (stratName s.1)) ∧
          l <+: locate cwd (dirName f)) ∧
      ∀ l, l ≠ locate cwd cfg.configOut → l ≠ locate cwd cfg.ejOut → l ≠ locate cwd cfg.iceOut →
        (∀ s ∈ strats, l ≠ locate cwd (pathJoin cfg.outPath (stratName s.1))) →
        fs'.file l = fs.file l := by
  rw [formatSave_write _ _ _ _ _ _ _ _ h1 h2]
  intro fs' h
  have g : Grown fs fs' (dirsFor cwd (saveItems cfg a b d strats)) (filesFor cwd (saveItems cfg a b d strats)) := by
    rcases h with h | h
    · exact (saveOutputs_grown cwd _ fs).1 fs' h
    · exact (saveOutputs_grown cwd _ fs).2.1 fs' h
  refine ⟨g.dirs, ?_, ?_⟩
  · intro l hl
    rcases g.newDirs l hl with h | ⟨x, hx, hl⟩
    · exact Or.inl h
    · refine Or.inr ⟨x.2, ?_, hl⟩
      unfold saveItems at hx
      simp only [List.cons_append, List.mem_cons, List.mem_append, List.mem_map, List.not_mem_nil,
        or_false] at hx
      rcases hx with rfl | ⟨s, hs, rfl⟩ | rfl | rfl
      · exact Or.inl rfl
      · exact Or.inr (Or.inr (Or.inr ⟨s, hs, rfl⟩))
      · exact Or.inr (Or.inl rfl)
      · exact Or.inr (Or.inr (Or.inl rfl))
  · intro l n1 n2 n3 n4
    apply g.files
    rintro ⟨x, hx, e, he⟩
    unfold saveItems at hx
    simp only [List.cons_append, List.mem_cons, List.mem_append, List.mem_map, List.not_mem_nil,
      or_false] at hx
    rcases hx with rfl | ⟨s, hs, rfl⟩ | rfl | rfl
    · cases he; exact n1 rfl
    · cases he; exact n4 s hs rfl
    · cases he; exact n2 rfl
    · cases he; exact n3 rfl

/-! ## Saving into one directory -/

/-- The output goes directly into the directory `dir`. -/
structure Direct (cwd : Str) (dir : Loc) (x : Out α × Str) (b : Str) (a : α) : Prop where
  tgt : target cwd x = some (dir ++ [b], a)
  table : (∃ a, x.1 = .frame a) ∨ ∃ a, x.1 = .cfg a
  nonempty : x.2 ≠ []
  noSlash : x.2.getLast? ≠ some '/'
  dirNonempty : dirName x.2 ≠ []
  dirLoc : locate cwd (dirName x.2) = dir

theorem direct_locate {cwd : Str} {dir : Loc} {o : Out α} {f : Str} {b : Str} {a : α}
    (h : Direct cwd dir (o, f) b a) : locate cwd f = dir ++ [b] := by
  have ht := h.tgt
  rcases h.table with ⟨a', ha⟩ | ⟨a', ha⟩ <;>
  · simp only at ha
    subst ha
    unfold target at ht
    simp only [Option.some.injEq, Prod.mk.injEq] at ht
    exact ht.1

theorem direct_ops {cwd : Str} {dir : Loc} {o : Out α} {f : Str} {b : Str} {a : α}
    (h : Direct cwd dir (o, f) b a) (fs : FS α) :
    saveOps cwd fs o f = (if fs.exists cwd (dirName f) then [] else [Op.makedirs (dirName f)]) ++
      [.create f, .fill f a] := by
  have ht := h.tgt
  rcases h.table with ⟨a', ha⟩ | ⟨a', ha⟩ <;>
  · simp only at ha
    subst ha
    unfold target at ht
    simp only [Option.some.injEq, Prod.mk.injEq] at ht
    rw [← ht.2]; rfl

/-- Saving one output into a directory that can be made. -/
theorem saveOne_ok {cwd : Str} {dir : Loc} {o : Out α} {f : Str} {b : Str} {a : α}
    (h : Direct cwd dir (o, f) b a) (fs : FS α) (hfile : ∀ l, l <+: dir → fs.file l = none)
    (hdir : fs.isDir (dir ++ [b]) = false) :
    ∃ s t, (stepAll cwd fs (saveOps cwd fs o f)) = (s ++ [t], .ok t) ∧
      t.isDir dir = true ∧ (∀ x ∈ s ++ [t], x.isDir dir = true) := by
  have hl := direct_locate h
  have hcreate : ∀ fs1 : FS α, fs1.isDir dir = true → fs1.isDir (dir ++ [b]) = false →
      ∃ s t, stepAll cwd fs1 [.create f, .fill f a] = (s ++ [t], .ok t) ∧ t.isDir dir = true ∧
        ∀ x ∈ s ++ [t], x.isDir dir = true := by
    intro fs1 d1 d2
    have hs : step cwd fs1 (.create f) =
        .ok { fs1 with file := fun l => if l = locate cwd f then some none else fs1.file l } := by
      unfold step
      simp only []
      rw [if_neg (by
        rintro (e | e)
        · exact h.nonempty e
        · exact h.noSlash e), hl, d2, if_neg (by decide), List.dropLast_concat, d1,
        if_neg (by decide)]
    obtain ⟨fs2, hfs2⟩ : ∃ t : FS α, t = { fs1 with file := fun l => if l = locate cwd f then some none else fs1.file l } :=
      ⟨_, rfl⟩
    have d3 : fs2.isDir dir = true := by rw [hfs2]; exact d1
    refine ⟨[fs2], { fs2 with file := fun l => if l = locate cwd f then some (some a) else fs2.file l }, ?_, ?_, ?_⟩
    · rw [stepAll_cons, hs, ← hfs2]; rfl
    · exact d3
    · intro x hx
      simp only [List.cons_append, List.nil_append, List.mem_cons, List.not_mem_nil, or_false] at hx
      rcases hx with rfl | rfl
      · exact d3
      · exact d3
  rw [direct_ops h]
  have hnf : fs.file dir = none := hfile dir (List.prefix_refl _)
  by_cases hex : fs.exists cwd (dirName f) = true
  · rw [if_pos hex, List.nil_append]
    refine hcreate fs ?_ hdir
    unfold FS.exists at hex
    rw [h.dirLoc, hnf] at hex
    simpa [h.dirNonempty] using hex
  · rw [if_neg hex]
    have hs : step cwd fs (.makedirs (dirName f)) =
        .ok { fs with isDir := fun l => fs.isDir l || decide (l <+: locate cwd (dirName f)) } := by
      unfold step
      simp only []
      rw [if_neg h.dirNonempty, if_neg hex, if_neg]
      rw [h.dirLoc]
      simp only [List.any_eq_true, not_exists, not_and]
      intro l hl
      rw [hfile l ((List.mem_inits l dir).1 hl)]
      simp
    obtain ⟨fs1, hfs1⟩ : ∃ t : FS α, t = { fs with isDir := fun l => fs.isDir l || decide (l <+: locate cwd (dirName f)) } :=
      ⟨_, rfl⟩
    have d1 : fs1.isDir dir = true := by rw [hfs1, h.dirLoc]; simp
    have d2 : fs1.isDir (dir ++ [b]) = false := by
      rw [hfs1, h.dirLoc]
      simp only [hdir, Bool.false_or, decide_eq_false_iff_not]
      intro hp
      have := hp.length_le
      simp at this
    obtain ⟨s, t, e1, e2, e3⟩ := hcreate fs1 d1 d2
    refine ⟨fs1 :: s, t, ?_, e2, ?_⟩
    · rw [List.cons_append, List.nil_append, stepAll_cons, hs, ← hfs1]
      simp only []
      rw [e1]; rfl
    · intro x hx
      rw [List.cons_append, List.mem_cons] at hx
      rcases hx with rfl | hx
      · exact d1
      · exact e3 x hx

/-- Saving any number of outputs into a directory that can be made succeeds, and the directory
exists from the first change on. -/
theorem saveOutputs_ok {cwd : Str} {dir : Loc} : ∀ (items : List (Out α × Str)) (fs : FS α),
    (∀ x ∈ items, ∃ b a, Direct cwd dir x b a ∧ fs.isDir (dir ++ [b]) = false) →
    (∀ l, l <+: dir → fs.file l = none) →
    (∃ t, (saveOutputs cwd fs items).2 = .ok t) ∧
    ∀ s ∈ (saveOutputs cwd fs items).1, s.isDir dir = true := by
  intro items
  induction items with
  | nil => intro fs _ _; exact ⟨⟨fs, rfl⟩, fun s hs => by simp [saveOutputs] at hs⟩
  | cons x rest ih =>
    intro fs hd hfile
    obtain ⟨o, f⟩ := x
    obtain ⟨b, a, hdx, hb⟩ := hd (o, f) List.mem_cons_self
    obtain ⟨s, t, h1, h2, h3⟩ := saveOne_ok hdx fs hfile hb
    have g : Grown fs t (fun l => l <+: dir) (fun l => l = dir ++ [b]) := by
      have := (stepAll_grown (D := fun l => l <+: dir) (S := fun l => l = dir ++ [b])
        (saveOps cwd fs o f) fs (by
          intro op hop
          obtain ⟨k1, k2⟩ := saveOps_touch cwd fs o f op hop
          refine ⟨fun l hl => hdx.dirLoc ▸ k1 l hl, fun l hl => ?_⟩
          obtain ⟨a', ha'⟩ := k2 l hl
          rw [hdx.tgt] at ha'
          cases ha'; rfl)).2.1
      exact this t (by rw [h1])
    rw [saveOutputs_cons, h1]
    simp only []
    obtain ⟨i1, i2⟩ := ih t (by
      intro y hy
      obtain ⟨b', a', hd', hb'⟩ := hd y (List.mem_cons_of_mem _ hy)
      refine ⟨b', a', hd', ?_⟩
      cases e : t.isDir (dir ++ [b']) with
      | false => rfl
      | true =>
        rcases g.newDirs _ e with h | h
        · rw [hb'] at h; cases h
        · have := h.length_le
          simp at this) (by
      intro l hl
      rw [g.files l (by
        rintro rfl
        have := hl.length_le
        simp at this)]
      exact hfile l hl)
    refine ⟨i1, ?_⟩
    intro y hy
    rcases List.mem_append.1 hy with hy | hy
    · exact h3 y hy
    · exact i2 y hy

/-! ## The file names of a configuration -/

/-- A name of the form directory plus slash plus ordinary name is saved directly there. -/
theorem direct_join {cwd : Str} (hc : cwd.head? = some '/') {x b : Str} (hx : x ≠ []) (hb : Ordinary b)
    {o : Out α} {a : α} (ho : o = .frame a ∨ o = .cfg a) :
    Direct cwd (locate cwd x) (o, pathJoin x b) b a := by
  have hlast : (pathJoin x b).getLast? ≠ some '/' ∧ pathJoin x b ≠ [] := by
    rw [pathJoin_ordinary hb]
    split
    · exact ⟨getLast?_ends hb.1 hb.2.2.2, by simp [hx]⟩
    · have e : x ++ '/' :: b = (x ++ ['/']) ++ b := by simp
      rw [e]
      exact ⟨getLast?_ends hb.1 hb.2.2.2, by simp⟩
  obtain ⟨k1, k2⟩ := locate_dirName cwd hx hb
  refine ⟨?_, ?_, hlast.2, hlast.1, k1, k2⟩
  · rw [← locate_join cwd hc hx hb]
    rcases ho with rfl | rfl <;> rfl
  · rcases ho with rfl | rfl
    · exact Or.inl ⟨a, rfl⟩
    · exact Or.inr ⟨a, rfl⟩

theorem direct_fileIn {env : Env} (hc : env.cwd.head? = some '/') {x b : Str} (hx : x ≠ [])
    (hb : Ordinary b) {o : Out α} {a : α} (ho : o = .frame a ∨ o = .cfg a) :
    Direct env.cwd (comps (preAbs env.cwd env.userHome x)) (o, fileIn env x b) b a := by
  have h1 := abs_canon hc env.userHome (pathJoin x b)
  rw [preAbs_join env.cwd env.userHome hx hb] at h1
  obtain ⟨b1, b2, b3⟩ := comps_join (preAbs_head hc env.userHome x) hb
  rw [b1, b2] at h1
  obtain ⟨pre, hp, e⟩ := canon_endsIn (initialSlashes (preAbs env.cwd env.userHome x))
    (comps (preAbs env.cwd env.userHome x)) b
  have hfile : fileIn env x b = pre ++ b := by unfold fileIn; rw [h1, e]
  have hhead : (fileIn env x b).head? = some '/' := abs_head hc env.userHome _
  have hpre : pre ≠ [] := by
    rintro rfl
    rw [hfile] at hhead
    exact ordinary_head hb hhead
  have hj : fileIn env x b = pathJoin pre b := by
    rw [hfile, pathJoin_ordinary hb, if_pos]
    rcases hp with h | h
    · exact Or.inl h
    · exact Or.inr h
  have hloc : locate env.cwd (fileIn env x b) = comps (preAbs env.cwd env.userHome x) ++ [b] := by
    rw [locate_abs env.cwd hhead]
    unfold fileIn
    rw [h1]
    apply comps_canon
    rw [← b1]
    exact comps_normal _
  have hpl : locate env.cwd pre = comps (preAbs env.cwd env.userHome x) := by
    have := locate_join env.cwd hc hpre hb
    rw [← hj, hloc] at this
    exact (List.append_inj_left' this rfl).symm
  rw [← hpl, hj]
  exact direct_join hc hpre hb ho

theorem locate_out {env : Env} (hc : env.cwd.head? = some '/') {out : Str}
    (h : (if env.pathExists out then out else absPath env.cwd (expandUser env.userHome out)).head? ≠ some '~') :
    locate env.cwd (if env.pathExists out then out else absPath env.cwd (expandUser env.userHome out)) =
      comps (preAbs env.cwd env.userHome out) := by
  split
  · rename_i hex
    rw [if_pos hex] at h
    have : expandUser env.userHome out = out := by
      unfold expandUser
      split
      · exact absurd rfl h
      · rfl
    unfold locate preAbs
    rw [this]; rfl
  · rw [locate_abs _ (abs_head hc env.userHome out), abs_canon hc, comps_canon _ (comps_normal _)]

theorem defaultOuts_decl : ∀ e ∈ defaultOuts, ∃ d ∈ cfgFields, d.name = e.1 ∧ d.type = .str ∧
    d.dflt = .str e.2 ∧ baseName e.2 = e.2 ∧ e.2 ≠ [] ∧ e.2 ≠ ['.'] ∧ e.2 ≠ ['.', '.'] ∧
    d.name ∉ ["seed", "run_date", "run_time", "data_path", "out_path", "figs_path"] ∧
    "_in".toList.isSuffixOf d.name.toList = false ∧ "_out".toList.isSuffixOf d.name.toList = true := by
  decide +kernel

theorem defaultOuts_ordinary : ∀ e ∈ defaultOuts, Ordinary e.2 := by
  have h : ∀ e ∈ defaultOuts, e.2 ≠ [] ∧ e.2 ≠ ['.'] ∧ e.2 ≠ ['.', '.'] ∧ '/' ∉ e.2 := by decide +kernel
  exact h

/-- Value of a file name that was not given. -/
theorem default_out_value {env : Env} {kw : List (String × PyVal)} {c c0 c4 c5 : CfgVals} {n : Int}
    {md pd : List (String × PyVal)} {out : Str} (st : Steps env kw c c0 c4 c5 n md pd out)
    {e : String × Str} (he : e ∈ defaultOuts) (hkw : e.1 ∉ kw.map (·.1)) :
    c e.1 = .str (if env.pathExists e.2 then e.2 else fileIn env out e.2) := by
  obtain ⟨d, hd, h1, h2, h3, h4, -, -, -, h5, h6, h7⟩ := defaultOuts_decl e he
  have hs : c0 d.name = .str e.2 := by
    rw [(initFields_ok st.init).2.2 d hd (by rw [h1]; exact hkw), h3]
  have := (st.file_value hd h5 h2 hs).2 h6 h7
  rw [h4, h1] at this
  exact this

theorem stratName_ordinary {t : Str} (ht : '/' ∉ t) : Ordinary (stratName t) := by
  unfold stratName
  refine ⟨by simp, ?_, ?_, ?_⟩
  · intro h
    have := congrArg List.head? h
    simp at this
  · intro h
    have := congrArg List.head? h
    simp at this
  · simp only [List.mem_append, not_or]
    exact ⟨⟨by decide, ht⟩, by decide⟩

theorem stratName_inj {t t' : Str} (h : stratName t = stratName t') : t = t' := by
  unfold stratName at h
  exact List.append_cancel_left (List.append_cancel_right h)

theorem stratName_default (t : Str) : ∀ e ∈ defaultOuts, stratName t ≠ e.2 := by
  intro e he h
  have h2 : ∀ e ∈ defaultOuts, e.2.head? ≠ some 's' := by decide +kernel
  apply h2 e he
  rw [← h]; rfl

/-- What the claims about a run assume: it saves tables only, the file names are not given and
do not exist in the current directory, nothing of another kind is in the way. -/
structure SaveReady (env : Env) (fs : FS α) (kw : List (String × PyVal)) (c : CfgVals)
    (strats : List (Str × α)) (dir : Loc) : Prop where
  cfg : makeCfg env kw = .ok c
  world : env.pathExists = fs.exists env.cwd
  cwd : env.cwd.head? = some '/'
  write : c "write" = .bool true
  npy : c "write_npy" = .bool false
  notGiven : ∀ e ∈ defaultOuts, e.1 ∉ kw.map (·.1)
  notThere : ∀ e ∈ defaultOuts, fs.exists env.cwd e.2 = false
  noTilde : (strVal (c "out_path")).head? ≠ some '~'
  dirLoc : locate env.cwd (strVal (c "out_path")) = dir
  noFile : ∀ l, l <+: dir → fs.file l = none
  noDirDefault : ∀ e ∈ defaultOuts, fs.isDir (dir ++ [e.2]) = false
  noDirStrat : ∀ s ∈ strats, fs.isDir (dir ++ [stratName s.1]) = false
  names : (strats.map (·.1)).Nodup
  noSlash : ∀ s ∈ strats, '/' ∉ s.1

theorem SaveReady.direct {env : Env} {fs : FS α} {kw : List (String × PyVal)} {c : CfgVals}
    {strats : List (Str × α)} {dir : Loc} (h : SaveReady env fs kw c strats dir) :
    (∀ e ∈ defaultOuts, ∀ (o : Out α) (a : α), (o = .frame a ∨ o = .cfg a) →
      Direct env.cwd dir (o, strVal (c e.1)) e.2 a) ∧
    ∀ s ∈ strats, Direct env.cwd dir (.frame s.2, pathJoin (strVal (c "out_path")) (stratName s.1))
      (stratName s.1) s.2 := by
  obtain ⟨c0, c4, c5, n, md, pd, out, st⟩ := makeCfg_steps h.cfg
  have hov := st.path_value (f := "out_path") (by simp) st.c4_out
  have hsv : strVal (c "out_path") = if env.pathExists out then out else
      absPath env.cwd (expandUser env.userHome out) := by rw [hov]; rfl
  have hloc : dir = comps (preAbs env.cwd env.userHome out) := by
    rw [← h.dirLoc, hsv]
    exact locate_out h.cwd (by rw [← hsv]; exact h.noTilde)
  obtain ⟨so, ro, -, ho⟩ := st.out_str
  have hone : out ≠ [] := by rw [ho]; unfold outPathStr; simp
  constructor
  · intro e he o a hoa
    have hv := default_out_value st he (h.notGiven e he)
    rw [h.world, if_neg (by rw [h.notThere e he]; decide)] at hv
    rw [hv, hloc]
    exact direct_fileIn h.cwd hone (defaultOuts_ordinary e he) hoa
  · intro s hs
    have := direct_join (o := Out.frame s.2) (a := s.2) h.cwd (x := strVal (c "out_path")) (b := stratName s.1) (by
      rw [hsv]
      split
      · exact hone
      · exact abs_ne_nil h.cwd _ _) (stratName_ordinary (h.noSlash s hs)) (Or.inl rfl)
    rw [h.dirLoc] at this
    exact this

theorem SaveReady.items {env : Env} {fs : FS α} {kw : List (String × PyVal)} {c : CfgVals}
    {strats : List (Str × α)} {dir : Loc} (h : SaveReady env fs kw c strats dir) (a b d : α) :
    (∀ x ∈ saveItems (saveCfgOf c) a b d strats, ∃ nm e, Direct env.cwd dir x nm e ∧
      fs.isDir (dir ++ [nm]) = false) ∧
    (saveItems (saveCfgOf c) a b d strats).filterMap (target env.cwd) =
      (dir ++ ["config_moonpies_v1.1.1.py".toList], a) ::
        strats.map (fun s => (dir ++ [stratName s.1], s.2)) ++
        [(dir ++ ["ej_columns.csv".toList], b), (dir ++ ["ice_columns.csv".toList], d)] := by
  obtain ⟨h1, h2⟩ := h.direct
  have m1 : ("config_py_out", "config_moonpies_v1.1.1.py".toList) ∈ defaultOuts := by decide
  have m2 : ("ej_t_csv_out", "ej_columns.csv".toList) ∈ defaultOuts := by decide
  have m3 : ("ice_t_csv_out", "ice_columns.csv".toList) ∈ defaultOuts := by decide
  have d1 := h1 _ m1 (.cfg a) a (Or.inr rfl)
  have d2 := h1 _ m2 (.frame b) b (Or.inl rfl)
  have d3 := h1 _ m3 (.frame d) d (Or.inl rfl)
  constructor
  · intro x hx
    unfold saveItems at hx
    simp only [List.cons_append, List.mem_cons, List.mem_append, List.mem_map, List.not_mem_nil,
      or_false] at hx
    rcases hx with rfl | ⟨s, hs, rfl⟩ | rfl | rfl
    · exact ⟨_, _, d1, h.noDirDefault _ m1⟩
    · exact ⟨_, _, h2 s hs, h.noDirStrat s hs⟩
    · exact ⟨_, _, d2, h.noDirDefault _ m2⟩
    · exact ⟨_, _, d3, h.noDirDefault _ m3⟩
  · unfold saveItems
    rw [List.filterMap_append, List.filterMap_cons]
    have t1 := d1.tgt
    have t2 := d2.tgt
    have t3 := d3.tgt
    simp only [] at t1 t2 t3
    have e1 : (saveCfgOf c).configOut = strVal (c "config_py_out") := rfl
    have e2 : (saveCfgOf c).ejOut = strVal (c "ej_t_csv_out") := rfl
    have e3 : (saveCfgOf c).iceOut = strVal (c "ice_t_csv_out") := rfl
    have e4 : (saveCfgOf c).outPath = strVal (c "out_path") := rfl
    rw [e1, e2, e3, e4, t1]
    have t4 : (strats.map (fun s => (Out.frame s.2, pathJoin (strVal (c "out_path")) (stratName s.1)))).filterMap
        (target env.cwd) = strats.map (fun s => (dir ++ [stratName s.1], s.2)) := by
      rw [List.filterMap_map]
      rw [← List.filterMap_eq_map]
      apply List.filterMap_congr
      intro s hs
      exact (h2 s hs).tgt
    rw [t4]
    simp only [List.filterMap_cons, List.filterMap_nil, t2, t3]

/-- **C60** a run that saves tables succeeds and leaves exactly the configuration, one table for
each cold trap and the two column tables in the output directory, which exists afterwards; no
other file changes and no other directory is made than those leading to it. -/
theorem C60_saved (env : Env) (fs : FS α) (kw : List (String × PyVal)) (c : CfgVals)
    (strats : List (Str × α)) (dir : Loc) (h : SaveReady env fs kw c strats dir)
    (a b d : α) (grids : α × α) :
    ∃ fs', (formatSaveOutputs env.cwd fs (saveCfgOf c) a b d strats grids).2 = .ok fs' ∧
      fs'.isDir dir = true ∧ (∀ l, fs'.isDir l = true → fs.isDir l = true ∨ l <+: dir) ∧
      fs'.file (dir ++ ["config_moonpies_v1.1.1.py".toList]) = some (some a) ∧
      (∀ s ∈ strats, fs'.file (dir ++ [stratName s.1]) = some (some s.2)) ∧
      fs'.file (dir ++ ["ej_columns.csv".toList]) = some (some b) ∧
      fs'.file (dir ++ ["ice_columns.csv".toList]) = some (some d) ∧
      ∀ l, l ≠ dir ++ ["config_moonpies_v1.1.1.py".toList] → l ≠ dir ++ ["ej_columns.csv".toList] →
        l ≠ dir ++ ["ice_columns.csv".toList] → (∀ s ∈ strats, l ≠ dir ++ [stratName s.1]) →
        fs'.file l = fs.file l := by
  obtain ⟨k1, k2⟩ := h.items a b d
  rw [formatSave_write _ _ _ _ _ _ _ _ (by unfold saveCfgOf; simp [h.write])
    (by unfold saveCfgOf; simp [h.npy])]
  obtain ⟨⟨fs', hok⟩, hdirs⟩ := saveOutputs_ok _ fs k1 h.noFile
  have g := (saveOutputs_grown env.cwd _ fs).2.1 fs' hok
  have hinj : ∀ x y : Str, dir ++ [x] = dir ++ [y] → x = y := by
    intro x y e
    have := List.append_cancel_left e
    simpa using this
  have hne : ∀ s ∈ strats, ∀ e ∈ defaultOuts, dir ++ [stratName s.1] ≠ dir ++ [e.2] :=
    fun s _ e he hh => stratName_default s.1 e he (hinj _ _ hh)
  have m1 : ("config_py_out", "config_moonpies_v1.1.1.py".toList) ∈ defaultOuts := by decide
  have m2 : ("ej_t_csv_out", "ej_columns.csv".toList) ∈ defaultOuts := by decide
  have m3 : ("ice_t_csv_out", "ice_columns.csv".toList) ∈ defaultOuts := by decide
  have hnd : (((saveItems (saveCfgOf c) a b d strats).filterMap (target env.cwd)).map (·.1)).Nodup := by
    rw [k2]
    simp only [List.cons_append, List.map_cons, List.map_append, List.map_map, List.map_nil]
    rw [List.nodup_cons]
    constructor
    · simp only [List.mem_append, List.mem_map, Function.comp_apply, List.mem_cons,
        List.not_mem_nil, or_false, not_or, not_exists, not_and]
      refine ⟨fun s hs => hne s hs _ m1, fun e => ?_, fun e => ?_⟩
      · have := hinj _ _ e; revert this; decide +kernel
      · have := hinj _ _ e; revert this; decide +kernel
    · rw [List.nodup_append]
      refine ⟨?_, ?_, ?_⟩
      · have hm : strats.map ((fun x : Loc × α => x.1) ∘ fun s => (dir ++ [stratName s.1], s.2)) =
            (strats.map (·.1)).map (fun t => dir ++ [stratName t]) := by
          rw [List.map_map]; rfl
        rw [hm]
        exact h.names.map (fun x y e => stratName_inj (hinj _ _ e))
      · rw [List.nodup_cons]
        refine ⟨?_, by simp⟩
        simp only [List.mem_singleton]
        intro e
        have := hinj _ _ e; revert this; decide +kernel
      · intro x hx y hy
        simp only [List.mem_map, Function.comp_apply] at hx
        obtain ⟨s, hs, rfl⟩ := hx
        simp only [List.mem_cons, List.not_mem_nil, or_false] at hy
        rcases hy with rfl | rfl
        · exact hne s hs _ m2
        · exact hne s hs _ m3
  have hc := saveOutputs_content env.cwd _ fs fs' hok hnd
  have hmem : ∀ l e, (l, e) ∈ (saveItems (saveCfgOf c) a b d strats).filterMap (target env.cwd) →
      fs'.file l = some (some e) := by
    intro l e hle
    obtain ⟨x, hx, ht⟩ := List.mem_filterMap.1 hle
    exact hc x hx l e ht
  rw [k2] at hmem
  refine ⟨fs', hok, ?_, ?_, ?_, ?_, ?_, ?_, ?_⟩
  · -- the last state is one of the states reached
    have hlast : ∀ (items : List (Out α × Str)) (f1 : FS α), items ≠ [] →
        (∀ x ∈ items, ∃ nm e, Direct env.cwd dir x nm e ∧ f1.isDir (dir ++ [nm]) = false) →
        (∀ l, l <+: dir → f1.file l = none) → ∀ t, (saveOutputs env.cwd f1 items).2 = .ok t →
        t.isDir dir = true := by
      intro items f1 hne hd hf t ht
      cases items with
      | nil => exact absurd rfl hne
      | cons x rest =>
        obtain ⟨o, f⟩ := x
        obtain ⟨nm, e, hdx, hb⟩ := hd (o, f) List.mem_cons_self
        obtain ⟨s, t1, h1, h2, h3⟩ := saveOne_ok hdx f1 hf hb
        rw [saveOutputs_cons, h1] at ht
        simp only [] at ht
        exact ((saveOutputs_grown env.cwd rest t1).2.1 t ht).dirs dir h2
    exact hlast _ fs (by unfold saveItems; simp) k1 h.noFile fs' hok
  · intro l hl
    rcases g.newDirs l hl with h1 | ⟨x, hx, hl⟩
    · exact Or.inl h1
    · obtain ⟨nm, e, hdx, -⟩ := k1 x hx
      exact Or.inr (hdx.dirLoc ▸ hl)
  · exact hmem _ _ (by simp)
  · intro s hs
    refine hmem _ _ ?_
    simp only [List.cons_append, List.mem_cons, List.mem_append, List.mem_map]
    exact Or.inr (Or.inl ⟨s, hs, rfl⟩)
  · exact hmem _ _ (by simp)
  · exact hmem _ _ (by simp)
  · intro l n1 n2 n3 n4
    apply g.files
    rintro ⟨x, hx, e, he⟩
    have : (l, e) ∈ (saveItems (saveCfgOf c) a b d strats).filterMap (target env.cwd) :=
      List.mem_filterMap.2 ⟨x, hx, he⟩
    rw [k2] at this
    simp only [List.cons_append, List.mem_cons, List.mem_append, List.mem_map, Prod.mk.injEq,
      List.not_mem_nil, or_false] at this
    rcases this with ⟨h1, -⟩ | ⟨s, hs, h1, -⟩ | ⟨h1, -⟩ | ⟨h1, -⟩
    · exact n1 h1
    · exact n4 s hs h1.symm
    · exact n2 h1
    · exact n3 h1

/-- A file name without a directory part makes `save_outputs` raise (`os.makedirs('')`). -/
theorem saveOutputs_bare {cwd : Str} {g : Str} (hd : dirName g = []) (o : Out α) :
    ∀ (items : List (Out α × Str)) (f1 : FS α), (o, g) ∈ items →
      (saveOutputs cwd f1 items).2 = .error .osError := by
  intro items
  induction items with
  | nil => intro f1 h; simp at h
  | cons x rest ih =>
    intro f1 h
    obtain ⟨o', f'⟩ := x
    rw [saveOutputs_cons]
    rcases List.mem_cons.1 h with h | h
    · rw [Prod.mk.injEq] at h
      obtain ⟨rfl, rfl⟩ := h
      have : (stepAll cwd f1 (saveOps cwd f1 o g)).2 = .error .osError := by
        unfold saveOps
        rw [hd]
        have : f1.exists cwd [] = false := by unfold FS.exists; simp
        rw [this]
        simp only [Bool.false_eq_true, if_false, List.cons_append, stepAll_cons]
        rfl
      rw [this]
    · cases hs : (stepAll cwd f1 (saveOps cwd f1 o' f')).2 with
      | error e =>
        obtain ⟨-, -, a3⟩ := stepAll_grown (cwd := cwd) (D := fun _ => True) (S := fun _ => True)
          (saveOps cwd f1 o' f') f1 (fun _ _ => ⟨fun _ _ => trivial, fun _ _ => trivial⟩)
        rw [a3 e hs]
      | ok f2 => exact ih f2 h

theorem save_bare (cwd : Str) (fs : FS α) (cfg : SaveCfg) (hw : cfg.write = true)
    (hd : dirName cfg.ejOut = []) (a b d : α) (strats : List (Str × α)) (grids : α × α) :
    (formatSaveOutputs cwd fs cfg a b d strats grids).2 = .error .osError := by
  have hfail := saveOutputs_bare (cwd := cwd) hd (.frame b) (saveItems cfg a b d strats) fs (by
    unfold saveItems
    simp only [List.cons_append, List.mem_cons, List.mem_append, List.not_mem_nil, or_false]
    exact Or.inr (Or.inr (Or.inl trivial)))
  unfold formatSaveOutputs
  simp only [hw, if_true]
  unfold saveItems stratName at hfail
  rw [hfail]

theorem default_ej : ("ej_t_csv_out", "ej_columns.csv".toList) ∈ defaultOuts ∧
    dirName "ej_columns.csv".toList = [] := by decide +kernel

/-- **C60** does not hold in a directory that already has a file with the default name of the
ejecta columns (for instance the output directory of an earlier run): whatever the
configuration, the run ends with an error when it comes to saving. -/
theorem C60_refuted (env : Env) (fs : FS α) (kw : List (String × PyVal)) (c : CfgVals)
    (hc : makeCfg env kw = .ok c) (hw : env.pathExists = fs.exists env.cwd)
    (hk : "ej_t_csv_out" ∉ kw.map (·.1)) (hthere : fs.exists env.cwd "ej_columns.csv".toList = true)
    (hwrite : c "write" = .bool true) (a b d : α) (strats : List (Str × α)) (grids : α × α) :
    (formatSaveOutputs env.cwd fs (saveCfgOf c) a b d strats grids).2 = .error .osError := by
  obtain ⟨m, hd⟩ := default_ej
  generalize "ej_columns.csv".toList = g at *
  obtain ⟨c0, c4, c5, n, md, pd, out, st⟩ := makeCfg_steps hc
  have hv := default_out_value st m hk
  simp only at hv
  rw [hw, if_pos hthere] at hv
  have he : (saveCfgOf c).ejOut = g := by
    have : (saveCfgOf c).ejOut = strVal (c "ej_t_csv_out") := rfl
    rw [this, hv]; rfl
  exact save_bare _ _ _ (by unfold saveCfgOf; simp [hwrite]) (by rw [he]; exact hd) _ _ _ _ _

/-! ## C59: the command line -/

/-- **C59** a seed on the command line (other than 0) is the seed of the run, whatever the file
says. -/
theorem C59_seed (env : Env) (file : List (String × PyVal)) (n : Int) (hn : n ≠ 0) (c : CfgVals)
    (hnd : (file.map (·.1)).Nodup) (h : readCustomCfg env (some file) (some n) = .ok c) :
    c "seed" = .int n := by
  unfold readCustomCfg at h
  simp only [] at h
  have hset : ∀ d : List (String × PyVal), (d.map (·.1)).Nodup →
      ((PyDict.set d "seed" (.int n)).map (·.1)).Nodup ∧
      ("seed", PyVal.int n) ∈ PyDict.set d "seed" (.int n) ∧
      ∀ k ∈ (PyDict.set d "seed" (.int n)).map (·.1), k = "seed" ∨ k ∈ d.map (·.1) := by
    intro d
    induction d with
    | nil => intro _; simp [PyDict.set]
    | cons a d ih =>
      intro hnd
      obtain ⟨k, v⟩ := a
      rw [List.map_cons, List.nodup_cons] at hnd
      unfold PyDict.set
      split
      · rename_i hk
        subst hk
        refine ⟨?_, List.mem_cons_self, ?_⟩
        · rw [List.map_cons, List.nodup_cons]; exact hnd
        · intro k' hk'
          rw [List.map_cons, List.mem_cons] at hk'
          rcases hk' with h | h
          · exact Or.inl h
          · exact Or.inr (by rw [List.map_cons]; exact List.mem_cons_of_mem _ h)
      · rename_i hk
        obtain ⟨i1, i2, i3⟩ := ih hnd.2
        refine ⟨?_, List.mem_cons_of_mem _ i2, ?_⟩
        · rw [List.map_cons, List.nodup_cons]
          refine ⟨?_, i1⟩
          intro hm
          rcases i3 k hm with h | h
          · exact hk h
          · exact hnd.1 h
        · intro k' hk'
          rw [List.map_cons, List.mem_cons] at hk'
          rcases hk' with h | h
          · exact Or.inr (by rw [h]; exact List.mem_cons_self)
          · rcases i3 k' h with h | h
            · exact Or.inl h
            · exact Or.inr (by rw [List.map_cons]; exact List.mem_cons_of_mem _ h)
  obtain ⟨s1, s2, -⟩ := hset file hnd
  exact C55_kept env _ c h s1 (.int n) s2 n (.int n) hn

/-- The world the configuration sees. -/
def worldOf (env : Env) (fs : FS α) : Env := { env with pathExists := fs.exists env.cwd }

/-- **C59** with `--resume` and an existing output directory nothing is run; otherwise the model
runs once and its files are those of that run. -/
theorem C59_resume (env : Env) (fs : FS α) (file : Option (List (String × PyVal))) (seed : Option Int)
    (resume : Bool) (work : CfgVals → Except PyErr (Results α)) (c : CfgVals)
    (h : readCustomCfg (worldOf env fs) file seed = .ok c) (r : Results α) (hr : work c = .ok r) :
    (cliRun env fs file seed resume work = .skipped ↔
      resume = true ∧ fs.exists env.cwd (strVal (c "out_path")) = true) ∧
    ∀ s t, cliRun env fs file seed resume work = .ran s t →
      ¬ (resume = true ∧ fs.exists env.cwd (strVal (c "out_path")) = true) ∧
      (s, t) = formatSaveOutputs env.cwd fs (saveCfgOf c) r.cfgText r.ej r.ice r.strats r.grids := by
  unfold cliRun
  unfold worldOf at h
  rw [h]
  simp only [hr]
  by_cases hs : resume = true ∧ fs.exists env.cwd (strVal (c "out_path")) = true
  · rw [if_pos hs]
    exact ⟨⟨fun _ => hs, fun _ => rfl⟩, fun s t e => by cases e⟩
  · rw [if_neg hs]
    refine ⟨⟨fun e => (by cases e), fun e => absurd e hs⟩, fun s t e => ⟨hs, ?_⟩⟩
    simp only [CliResult.ran.injEq] at e
    rw [← e.1, ← e.2]

/-- **C59** (negative) interrupted runs are skipped: let a run with seed and file start where its
output directory can be made, and stop after any number of file operations but at least one.  A
second call with `--resume`, on the same day in the same directory, does not run the model, even
if tables are missing. -/
theorem C59_interrupted (env : Env) (fs : FS α) (kw : List (String × PyVal)) (c : CfgVals)
    (strats : List (Str × α)) (dir : Loc) (h : SaveReady env fs kw c strats dir) (a b d : α)
    (grids : α × α) (s : FS α)
    (hs : s ∈ (formatSaveOutputs env.cwd fs (saveCfgOf c) a b d strats grids).1)
    (c' : CfgVals) (hc' : makeCfg (worldOf env s) kw = .ok c')
    (htil : (strVal (c' "out_path")).head? ≠ some '~') (hseed : c' "seed" = c "seed")
    (work : CfgVals → Except PyErr (Results α)) :
    cliRun env s (some kw) none true work = .skipped := by
  have hdir : s.isDir dir = true := by
    rw [formatSave_write _ _ _ _ _ _ _ _ (by unfold saveCfgOf; simp [h.write])
      (by unfold saveCfgOf; simp [h.npy])] at hs
    exact (saveOutputs_ok _ fs (h.items a b d).1 h.noFile).2 s hs
  obtain ⟨c0, c4, c5, n, md, pd, out, st⟩ := makeCfg_steps h.cfg
  obtain ⟨c0', c4', c5', n', md', pd', out', st'⟩ := makeCfg_steps hc'
  have hn : n' = n := by
    obtain ⟨x, m, i1, i2, i3⟩ := seed_value h.cfg
    obtain ⟨x', m', j1, j2, j3⟩ := seed_value hc'
    rw [st.init] at i1; cases i1
    rw [st.seed] at i2; cases i2
    rw [st'.init] at j1; cases j1
    rw [st'.seed] at j2; cases j2
    rw [i3, j3] at hseed
    cases hseed; rfl
  have h0 : c0' = c0 := by
    have := st'.init
    rw [st.init] at this
    cases this; rfl
  have hout : out' = out := by
    have e1 := st.outp
    have e2 := st'.outp
    rw [h0, hn] at e2
    have e3 : getOutPath (worldOf env s) (c0 "out_path") n (c0 "run_name") =
        getOutPath env (c0 "out_path") n (c0 "run_name") := rfl
    rw [e3, e1] at e2
    cases e2; rfl
  have v := st.path_value (f := "out_path") (by simp) st.c4_out
  have v' := st'.path_value (f := "out_path") (by simp) st'.c4_out
  have l1 : dir = comps (preAbs env.cwd env.userHome out) := by
    rw [← h.dirLoc, v]
    exact locate_out h.cwd (by have := h.noTilde; rw [v] at this; exact this)
  have l2 : locate env.cwd (strVal (c' "out_path")) = comps (preAbs env.cwd env.userHome out') := by
    rw [v']
    exact locate_out (env := worldOf env s) h.cwd (by rw [v'] at htil; exact htil)
  have hne : strVal (c' "out_path") ≠ [] := by
    obtain ⟨so, ro, -, ho⟩ := st'.out_str
    rw [v']
    simp only [strVal]
    split
    · rw [ho]; unfold outPathStr; simp
    · exact abs_ne_nil h.cwd _ _
  have hex : s.exists env.cwd (strVal (c' "out_path")) = true := by
    unfold FS.exists
    rw [l2, hout, ← l1, hdir]
    simp [hne]
  unfold cliRun
  have hr : readCustomCfg { env with pathExists := s.exists env.cwd } (some kw) none = .ok c' := hc'
  rw [hr]
  simp only [hex, and_self, if_true]

/-! ## A concrete world -/

/-- Home directory, package data, and no files. -/
def fs0 : FS Nat where
  isDir := fun l => [[], ["home".toList], ["home".toList, "u".toList], ["pkg".toList],
    ["pkg".toList, "data".toList]].contains l
  file := fun _ => none

/-- The configuration made there for a run that saves tables. -/
def cfg0 : CfgVals := match makeCfg (worldOf env0 fs0) [("write", .bool true)] with
  | .ok c => c
  | .error _ => fun _ => .none

/-- The output directory of that run. -/
def dir0 : Loc := ["home".toList, "u".toList, "out".toList, "240101".toList, "moonpies".toList,
  "00777".toList]

/-- What the kernel computes about `cfg0`. -/
theorem cfg0_facts : (makeCfg (worldOf env0 fs0) [("write", .bool true)]).isOk = true ∧
    cfg0 "write" = .bool true ∧ cfg0 "write_npy" = .bool false ∧
    (strVal (cfg0 "out_path")).head? ≠ some '~' ∧
    locate env0.cwd (strVal (cfg0 "out_path")) = dir0 ∧ cfg0 "seed" = .int 777 := by
  decide +kernel

/-- The assumptions of `C60_saved` and `C59_interrupted` hold there. -/
theorem ready0 : SaveReady (worldOf env0 fs0) fs0 [("write", .bool true)] cfg0
    [("Faustini".toList, 3), ("Haworth".toList, 4)] dir0 := by
  obtain ⟨h1, h2, h3, h4, h5, -⟩ := cfg0_facts
  refine ⟨?_, rfl, rfl, h2, h3, by decide +kernel, by decide +kernel, h4, h5, fun _ _ => rfl,
    by decide +kernel, by decide +kernel, by decide +kernel, by decide +kernel⟩
  unfold cfg0
  generalize makeCfg (worldOf env0 fs0) [("write", .bool true)] = m at h1
  cases m with
  | ok c => rfl
  | error e => cases h1

/-- State of the world when that run is killed after its first change. -/
def killed0 : FS Nat := { fs0 with isDir := fun l => fs0.isDir l || decide (l <+: dir0) }

/-- The first change made when the directory of the first file is missing. -/
theorem saveOutputs_first {cwd : Str} {fs fs' : FS α} {o : Out α} {f : Str} {rest : List (Out α × Str)}
    (h : fs.exists cwd (dirName f) = false) (hs : step cwd fs (.makedirs (dirName f)) = .ok fs') :
    fs' ∈ (saveOutputs cwd fs ((o, f) :: rest)).1 := by
  rw [saveOutputs_cons]
  have : fs' ∈ (stepAll cwd fs (saveOps cwd fs o f)).1 := by
    unfold saveOps
    rw [h]
    simp only [Bool.false_eq_true, if_false, List.cons_append, stepAll_cons, hs]
    exact List.mem_cons_self
  cases (stepAll cwd fs (saveOps cwd fs o f)).2 with
  | error e => exact this
  | ok t => exact List.mem_append_left _ this

theorem saveCfgOf_config (c : CfgVals) : (saveCfgOf c).configOut = strVal (c "config_py_out") := rfl

theorem killed0_facts : (makeCfg (worldOf env0 killed0) [("write", .bool true)]).map (fun c =>
      (decide ((strVal (c "out_path")).head? ≠ some '~'), c "seed")) = .ok (true, .int 777) ∧
    fs0.exists env0.cwd (dirName (strVal (cfg0 "config_py_out"))) = false ∧
    dirName (strVal (cfg0 "config_py_out")) ≠ [] ∧
    locate env0.cwd (dirName (strVal (cfg0 "config_py_out"))) = dir0 ∧
    fs0.exists env0.cwd (strVal (cfg0 "out_path")) = false := by
  decide +kernel

theorem killed_core (env : Env) (fs s : FS α) (kw : List (String × PyVal)) (c c' : CfgVals)
    (dir : Loc) (r : Results α) (h : SaveReady env fs kw c r.strats dir)
    (k2 : fs.exists env.cwd (dirName (strVal (c "config_py_out"))) = false)
    (hstep : step env.cwd fs (.makedirs (dirName (strVal (c "config_py_out")))) = .ok s)
    (k5 : fs.exists env.cwd (strVal (c "out_path")) = false)
    (hc' : makeCfg (worldOf env s) kw = .ok c') (htil : (strVal (c' "out_path")).head? ≠ some '~')
    (hseed : c' "seed" = c "seed") :
    ∃ states t, cliRun env fs (some kw) none true (fun _ => .ok r) = .ran states t ∧ s ∈ states ∧
      ∀ work : CfgVals → Except PyErr (Results α), cliRun env s (some kw) none true work = .skipped := by
  have hmem : s ∈ (formatSaveOutputs env.cwd fs (saveCfgOf c) r.cfgText r.ej r.ice r.strats
      r.grids).1 := by
    rw [formatSave_write _ _ _ _ _ _ _ _ (by unfold saveCfgOf; simp [h.write])
      (by unfold saveCfgOf; simp [h.npy])]
    unfold saveItems
    rw [saveCfgOf_config, List.cons_append]
    exact saveOutputs_first k2 hstep
  refine ⟨_, (formatSaveOutputs env.cwd fs (saveCfgOf c) r.cfgText r.ej r.ice r.strats r.grids).2, ?_,
    hmem, fun work => C59_interrupted env fs kw c _ dir h _ _ _ _ s hmem c' hc' htil
    hseed work⟩
  have hcfg : readCustomCfg { env with pathExists := fs.exists env.cwd } (some kw) none = .ok c := by
    rw [← h.world]; exact h.cfg
  unfold cliRun
  rw [hcfg]
  simp only [k5, Bool.false_eq_true, and_false, if_false]

/-- **C59** does not hold: a run killed right after it made its output directory has written no
file, and with `--resume` it is skipped for good. -/
theorem C59_refuted : ∃ (env : Env) (fs s : FS Nat) (kw : List (String × PyVal)) (r : Results Nat)
    (states : List (FS Nat)) (t : Except PyErr (FS Nat)),
    cliRun env fs (some kw) none true (fun _ => .ok r) = .ran states t ∧ s ∈ states ∧
    (∀ l, s.file l = none) ∧
    ∀ work : CfgVals → Except PyErr (Results Nat), cliRun env s (some kw) none true work = .skipped := by
  obtain ⟨k1, k2, k3, k4, k5⟩ := killed0_facts
  have hready := ready0
  have hseed := cfg0_facts.2.2.2.2.2
  generalize cfg0 = c at *
  have hstep : step env0.cwd fs0 (.makedirs (dirName (strVal (c "config_py_out")))) = .ok killed0 := by
    unfold step
    simp only []
    rw [if_neg k3, if_neg (by rw [k2]; decide), if_neg, k4]
    · rfl
    · simp [fs0]
  cases hm : makeCfg (worldOf env0 killed0) [("write", .bool true)] with
  | error e => rw [hm] at k1; cases k1
  | ok c' =>
    rw [hm] at k1
    simp only [Except.map, Except.ok.injEq, Prod.mk.injEq, decide_eq_true_eq] at k1
    obtain ⟨states, t, h1, h2, h3⟩ := killed_core (worldOf env0 fs0) fs0 killed0 [("write", .bool true)] c c'
      dir0 ⟨0, 1, 2, _, (5, 6)⟩ hready k2 hstep k5 hm k1.1 (by rw [k1.2, hseed])
    exact ⟨_, _, _, _, _, states, t, h1, h2, fun _ => rfl, h3⟩

/-- A world for `C60_refuted`: the current directory holds an `ej_columns.csv`. -/
def fs1 : FS Nat := { fs0 with
  file := fun l => if l = ["home".toList, "u".toList, "ej_columns.csv".toList] then some (some 9) else none }

example : (makeCfg (worldOf env0 fs1) [("write", .bool true)]).map (fun c => c "write") =
    .ok (.bool true) ∧ fs1.exists env0.cwd "ej_columns.csv".toList = true := by decide +kernel

example : (readCustomCfg (worldOf env0 fs0) (some [("seed", .int 5)]) (some 42)).map (fun c => c "seed") =
    .ok (.int 42) ∧
    (readCustomCfg (worldOf env0 fs0) (some [("seed", .int 5)]) (some 0)).map (fun c => c "seed") =
      .ok (.int 777) := by decide +kernel

end MoonPIES
