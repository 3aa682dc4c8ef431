import Verif.Model.FigFiles
import Verif.Lemmas.PosixPath
import Mathlib.Data.List.Infix
import Mathlib.Data.List.DropRight
import Mathlib.Data.List.Nodup

/-!
# C93, C94: files of figures
-/

namespace MoonPIES

/-! ## Names with an extension -/

/-- A file name with an extension: some characters, a dot, and characters without a dot. -/
def Spec.NameExt (name stem ext : Str) : Prop :=
  name = stem ++ '.' :: ext ∧ stem ≠ [] ∧ ext ≠ [] ∧ '.' ∉ ext

theorem takeWhile_dot (ext rest : Str) (h : '.' ∉ ext) :
    (ext ++ '.' :: rest).takeWhile (fun c => c != '.') = ext := by
  induction ext with
  | nil => simp
  | cons c ext ih =>
    rw [List.mem_cons, not_or] at h
    have hc : (c != '.') = true := by simpa using fun e => h.1 e.symm
    rw [List.cons_append, List.takeWhile_cons, if_pos hc, ih h.2]

theorem stemSuffix_ext {name stem ext : Str} (h : Spec.NameExt name stem ext) :
    stemSuffix name = (stem, '.' :: ext) := by
  obtain ⟨rfl, hs, he, hd⟩ := h
  have hrev : (stem ++ '.' :: ext).reverse = ext.reverse ++ '.' :: stem.reverse := by simp
  have htw : ((stem ++ '.' :: ext).reverse.takeWhile (fun c => c != '.')).reverse = ext := by
    rw [hrev, takeWhile_dot _ _ (by simpa using hd), List.reverse_reverse]
  have hl : 0 < stem.length := List.length_pos_iff.2 hs
  unfold stemSuffix
  simp only [htw]
  have hi : (stem ++ '.' :: ext).length - (ext.length + 1) = stem.length := by simp
  rw [hi, if_pos ⟨by simp; omega, hl, he⟩]
  simp

theorem stemSuffix_inv (name : Str) : stemSuffix name = (name, []) ∨
    ∃ stem ext, Spec.NameExt name stem ext := by
  by_cases hdot : '.' ∈ name
  · obtain ⟨ext, hext⟩ : ∃ e, e = (name.reverse.takeWhile (fun c => c != '.')).reverse := ⟨_, rfl⟩
    obtain ⟨rest, hrest⟩ : ∃ r, name.reverse = name.reverse.takeWhile (fun c => c != '.') ++ r ∧
        r = name.reverse.dropWhile (fun c => c != '.') :=
      ⟨_, (List.takeWhile_append_dropWhile ..).symm, rfl⟩
    have hne : rest ≠ [] := by
      intro e
      have : name.reverse = name.reverse.takeWhile (fun c => c != '.') := by
        conv_lhs => rw [hrest.1, e, List.append_nil]
      have hm : '.' ∈ name.reverse.takeWhile (fun c => c != '.') := by
        rw [← this]; simpa using hdot
      have := List.mem_takeWhile_imp hm
      simp at this
    obtain ⟨c, rest', rfl⟩ := List.exists_cons_of_ne_nil hne
    have hc : c = '.' := by
      have := List.head_dropWhile_not (fun c => c != '.') (l := name.reverse) (by rw [← hrest.2]; simp)
      simp only [← hrest.2] at this
      simpa using this
    subst hc
    have hname : name = rest'.reverse ++ '.' :: ext := by
      rw [hext, ← List.reverse_inj, List.reverse_append]
      conv_lhs => rw [hrest.1]
      simp
    have hnd : '.' ∉ ext := by
      rw [hext]
      intro hm
      have := List.mem_takeWhile_imp (List.mem_reverse.1 hm)
      simp at this
    by_cases h : rest'.reverse ≠ [] ∧ ext ≠ []
    · exact Or.inr ⟨_, _, hname, h.1, h.2, hnd⟩
    · left
      unfold stemSuffix
      simp only [← hext]
      rw [if_neg]
      rintro ⟨-, h2, h3⟩
      apply h
      refine ⟨?_, h3⟩
      intro e
      rw [hname, e] at h2
      simp at h2
  · left
    unfold stemSuffix
    simp only []
    rw [if_neg]
    rintro ⟨h1, -, -⟩
    have : name.reverse.takeWhile (fun c => c != '.') = name.reverse := by
      rw [List.takeWhile_eq_self_iff]
      intro c hc
      have : c ≠ '.' := by rintro rfl; exact hdot (by simpa using hc)
      simpa using this
    rw [this] at h1
    simp at h1

theorem stemSuffix_append (name : Str) : (stemSuffix name).1 ++ (stemSuffix name).2 = name := by
  rcases stemSuffix_inv name with h | ⟨s, e, h⟩
  · rw [h]; simp
  · rw [stemSuffix_ext h, h.1]

/-! ## Paths as lists of names -/

/-- An ordinary part of a path. -/
def Spec.Part (c : Str) : Prop := c ≠ [] ∧ c ≠ ['.'] ∧ '/' ∉ c

/-- The path with `n` leading slashes and the given parts. -/
def Spec.pathOf (n : Nat) (parts : List Str) : Str := List.replicate n '/' ++ joinSlash parts

theorem joinSlash_first {l : List Str} (hne : l ≠ []) (hl : ∀ c ∈ l, Spec.Part c) :
    ∃ x r, joinSlash l = x :: r ∧ x ≠ '/' := by
  cases l with
  | nil => exact absurd rfl hne
  | cons c cs =>
    obtain ⟨h1, -, h4⟩ := hl c (by simp)
    cases c with
    | nil => exact absurd rfl h1
    | cons x xs =>
      have hx : x ≠ '/' := fun e => h4 (by simp [e])
      cases cs with
      | nil => exact ⟨x, xs, rfl, hx⟩
      | cons d ds => exact ⟨x, _, rfl, hx⟩

theorem parsePath_of {n : Nat} (hn : n ≤ 2) {l : List Str} (hne : l ≠ []) (hl : ∀ c ∈ l, Spec.Part c) :
    parsePath (Spec.pathOf n l) = ⟨List.replicate n '/', l⟩ := by
  obtain ⟨x, r, hx, hxs⟩ := joinSlash_first hne hl
  have hi : initialSlashes (Spec.pathOf n l) = n := by
    unfold Spec.pathOf
    rw [hx]
    have h3 : n = 0 ∨ n = 1 ∨ n = 2 := by omega
    rcases h3 with rfl | rfl | rfl
    · show initialSlashes (x :: r) = 0
      unfold initialSlashes
      split <;> simp_all
    · exact initialSlashes_one hxs r
    · exact initialSlashes_two hxs r
  unfold parsePath
  rw [hi]
  unfold Spec.pathOf
  rw [splitSlash_replicate, splitSlash_joinSlash hne (fun c hc => (hl c hc).2.2), List.filter_append]
  have e1 : (List.replicate n ([] : Str)).filter (fun c => decide (c ≠ [] ∧ c ≠ ['.'])) = [] := by
    rw [List.filter_eq_nil_iff]
    intro c hc
    rw [(List.mem_replicate.1 hc).2]
    simp
  have e2 : l.filter (fun c => decide (c ≠ [] ∧ c ≠ ['.'])) = l := by
    rw [List.filter_eq_self]
    intro c hc
    simpa using ⟨(hl c hc).1, (hl c hc).2.1⟩
  rw [e1, e2, List.nil_append]

theorem asPosix_of {n : Nat} {l : List Str} (hne : l ≠ []) (hl : ∀ c ∈ l, Spec.Part c) :
    PurePath.asPosix ⟨List.replicate n '/', l⟩ = Spec.pathOf n l := by
  obtain ⟨x, r, hx, -⟩ := joinSlash_first hne hl
  unfold PurePath.asPosix Spec.pathOf
  simp only []
  rw [if_neg (by rw [hx]; simp)]

theorem parsePath_part {c : Str} (hc : Spec.Part c) : parsePath c = ⟨[], [c]⟩ := by
  have := parsePath_of (n := 0) (by omega) (l := [c]) (by simp) (by simpa using hc)
  simpa [Spec.pathOf, joinSlash] using this

theorem pathOf_concat (n : Nat) {l : List Str} (hne : l ≠ []) (s : Str) :
    Spec.pathOf n (l ++ [s]) = Spec.pathOf n l ++ '/' :: s := by
  unfold Spec.pathOf
  rw [joinSlash_concat, if_neg hne, List.append_assoc]

/-- What parsing gives. -/
theorem parsePath_wf (s : Str) : ∃ n ≤ 2, (parsePath s).root = List.replicate n '/' ∧
    ∀ c ∈ (parsePath s).parts, Spec.Part c := by
  refine ⟨initialSlashes s, ?_, rfl, ?_⟩
  · unfold initialSlashes
    split <;> omega
  · intro c hc
    obtain ⟨h1, h2⟩ := List.mem_filter.1 hc
    rw [decide_eq_true_iff] at h2
    exact ⟨h2.1, h2.2, mem_splitSlash h1⟩

/-! ## C93: the file of a figure -/

theorem part_ext {name stem ext : Str} (h : Spec.NameExt name stem ext) (hs : '/' ∉ name) :
    Spec.Part name := by
  obtain ⟨rfl, h1, h2, -⟩ := h
  refine ⟨by simp, ?_, hs⟩
  intro e
  cases stem with
  | nil => exact h1 rfl
  | cons x xs =>
    rw [List.cons_append] at e
    injection e with _ e
    simp at e

/-- **C93** the name of the figure goes into the directory of the figures; the version is put
between the stem and the extension unless the path mentions it already. -/
theorem C93_file (n : Nat) (hn : n ≤ 2) (parts : List Str) (hne : parts ≠ []) (hp : ∀ c ∈ parts, Spec.Part c)
    (name stem ext version : Str) (hname : Spec.NameExt name stem ext) (hns : '/' ∉ name)
    (hvs : '/' ∉ version) :
    ∃ q, figFile (Spec.pathOf n parts) name version = .ok (some q) ∧
      q.asPosix = Spec.pathOf n parts ++ '/' ::
        (if version <:+: Spec.pathOf n parts ++ '/' :: name then name
          else stem ++ '_' :: version ++ '.' :: ext) := by
  have hpart := part_ext hname hns
  have hjoin : (parsePath (Spec.pathOf n parts)).join (parsePath name) =
      ⟨List.replicate n '/', parts ++ [name]⟩ := by
    rw [parsePath_of hn hne hp, parsePath_part hpart]; rfl
  have hall : ∀ c ∈ parts ++ [name], Spec.Part c := by
    intro c hc
    rcases List.mem_append.1 hc with h | h
    · exact hp c h
    · rw [List.mem_singleton.1 h]; exact hpart
  have hstr : PurePath.asPosix ⟨List.replicate n '/', parts ++ [name]⟩ = Spec.pathOf n parts ++ '/' :: name := by
    rw [asPosix_of (by simp) hall, pathOf_concat n hne]
  have hn0 : name ≠ [] := hpart.1
  unfold figFile
  rw [if_neg hn0]
  simp only [hjoin, hstr]
  by_cases hv : version <:+: Spec.pathOf n parts ++ '/' :: name
  · rw [if_pos hv, if_pos hv]
    exact ⟨_, rfl, hstr⟩
  · rw [if_neg hv, if_neg hv]
    have hnm : PurePath.name ⟨List.replicate n '/', parts ++ [name]⟩ = name := by
      unfold PurePath.name; simp
    rw [hnm, stemSuffix_ext hname]
    obtain ⟨new, hnew⟩ : ∃ t, t = stem ++ '_' :: version ++ '.' :: ext := ⟨_, rfl⟩
    simp only [← hnew]
    have hnew1 : Spec.NameExt new (stem ++ '_' :: version) ext :=
      ⟨hnew, by simp, hname.2.2.1, hname.2.2.2⟩
    have hnew2 : '/' ∉ new := by
      rw [hname.1] at hns
      rw [hnew]
      simp only [List.mem_append, List.mem_cons, not_or] at hns ⊢
      exact ⟨⟨hns.1, by decide, hvs⟩, by decide, hns.2.2⟩
    have hnp := part_ext hnew1 hnew2
    have hall' : ∀ c ∈ parts ++ [new], Spec.Part c := by
      intro c hc
      rcases List.mem_append.1 hc with h | h
      · exact hp c h
      · rw [List.mem_singleton.1 h]; exact hnp
    refine ⟨⟨List.replicate n '/', parts ++ [new]⟩, ?_, ?_⟩
    · unfold PurePath.withName
      rw [hnm, if_neg hn0, if_neg (by
        rintro (h | h | h)
        · exact hnp.1 h
        · exact hnp.2.2 h
        · exact hnp.2.1 h)]
      simp only [bind, Except.bind, List.dropLast_concat]
    · rw [asPosix_of (by simp) hall', pathOf_concat n hne]

/-- **C93** whatever the arguments, a saved figure has its version in its path. -/
theorem C93_named (figdir fsave version : Str) (q : PurePath)
    (h : figFile figdir fsave version = .ok (some q)) : version <:+: q.asPosix := by
  unfold figFile at h
  split at h
  · cases h
  · simp only [] at h
    split at h
    · rename_i hv
      simp only [Except.ok.injEq, Option.some.injEq] at h
      rw [← h]; exact hv
    · obtain ⟨p, hp⟩ : ∃ p, p = (parsePath figdir).join (parsePath fsave) := ⟨_, rfl⟩
      rw [← hp] at h
      unfold PurePath.withName at h
      split at h
      · cases h
      split at h
      · cases h
      simp only [bind, Except.bind, Except.ok.injEq, Option.some.injEq] at h
      rw [← h]
      unfold PurePath.asPosix
      simp only []
      rw [if_neg (by
        intro e
        have := (List.append_eq_nil_iff.1 e).2
        rw [joinSlash_concat] at this
        split at this <;> simp at this)]
      rw [joinSlash_concat]
      split
      · exact ⟨p.root ++ ((stemSuffix p.name).1 ++ ['_']), (stemSuffix p.name).2, by simp⟩
      · exact ⟨p.root ++ (joinSlash p.parts.dropLast ++ '/' :: ((stemSuffix p.name).1 ++ ['_'])),
          (stemSuffix p.name).2, by simp⟩

/-- **C93** a name that is an absolute path is not put into the directory of the figures. -/
theorem C93_absolute (n : Nat) (hn : n = 1 ∨ n = 2) (dirs : List Str) (hne : dirs ≠ [])
    (hp : ∀ c ∈ dirs, Spec.Part c) (figdir name stem ext version : Str) (hname : Spec.NameExt name stem ext)
    (hns : '/' ∉ name) (hvs : '/' ∉ version) :
    ∃ q, figFile figdir (Spec.pathOf n dirs ++ '/' :: name) version = .ok (some q) ∧
      q.asPosix = Spec.pathOf n dirs ++ '/' ::
        (if version <:+: Spec.pathOf n dirs ++ '/' :: name then name
          else stem ++ '_' :: version ++ '.' :: ext) := by
  have hn2 : n ≤ 2 := by omega
  have hpart := part_ext hname hns
  have hall : ∀ c ∈ dirs ++ [name], Spec.Part c := by
    intro c hc
    rcases List.mem_append.1 hc with h | h
    · exact hp c h
    · rw [List.mem_singleton.1 h]; exact hpart
  obtain ⟨q, h1, h2⟩ := C93_file n hn2 dirs hne hp name stem ext version hname hns hvs
  refine ⟨q, ?_, h2⟩
  rw [← h1]
  have e1 : (parsePath figdir).join (parsePath (Spec.pathOf n dirs ++ '/' :: name)) =
      ⟨List.replicate n '/', dirs ++ [name]⟩ := by
    rw [← pathOf_concat n hne, parsePath_of hn2 (by simp) hall]
    unfold PurePath.join
    rw [if_neg]
    rcases hn with rfl | rfl <;> simp
  have e2 : (parsePath (Spec.pathOf n dirs)).join (parsePath name) =
      ⟨List.replicate n '/', dirs ++ [name]⟩ := by
    rw [parsePath_of hn2 hne hp, parsePath_part hpart]; rfl
  unfold figFile
  rw [e1, e2, if_neg (by simp), if_neg hpart.1]

/-- **C93** without a file name nothing is saved. -/
theorem C93_show (figdir version : Str) : figFile figdir [] version = .ok none := rfl

/-- **C93** two versions that the path does not mention never write the same file. -/
theorem C93_versions_partial (n : Nat) (hn : n ≤ 2) (parts : List Str) (hne : parts ≠ [])
    (hp : ∀ c ∈ parts, Spec.Part c) (name stem ext v w : Str) (hname : Spec.NameExt name stem ext)
    (hns : '/' ∉ name) (hv : '/' ∉ v) (hw : '/' ∉ w)
    (hvm : ¬ v <:+: Spec.pathOf n parts ++ '/' :: name) (hwm : ¬ w <:+: Spec.pathOf n parts ++ '/' :: name)
    (q r : PurePath) (hq : figFile (Spec.pathOf n parts) name v = .ok (some q))
    (hr : figFile (Spec.pathOf n parts) name w = .ok (some r)) (he : q.asPosix = r.asPosix) : v = w := by
  obtain ⟨q', hq', e1⟩ := C93_file n hn parts hne hp name stem ext v hname hns hv
  obtain ⟨r', hr', e2⟩ := C93_file n hn parts hne hp name stem ext w hname hns hw
  rw [hq] at hq'
  rw [hr] at hr'
  injection hq' with hq'
  injection hq' with hq'
  injection hr' with hr'
  injection hr' with hr'
  subst hq' hr'
  rw [if_neg hvm] at e1
  rw [if_neg hwm] at e2
  rw [e1, e2] at he
  have := List.append_cancel_left he
  injection this with _ this
  rw [List.append_left_inj, List.append_right_inj] at this
  injection this

/-- **C93** two figures whose paths do not mention the version never share a file. -/
theorem C93_figures_partial (n : Nat) (hn : n ≤ 2) (parts : List Str) (hne : parts ≠ [])
    (hp : ∀ c ∈ parts, Spec.Part c) (a sa ea b sb eb v : Str) (ha : Spec.NameExt a sa ea)
    (hb : Spec.NameExt b sb eb) (has : '/' ∉ a) (hbs : '/' ∉ b) (hv : '/' ∉ v)
    (ham : ¬ v <:+: Spec.pathOf n parts ++ '/' :: a) (hbm : ¬ v <:+: Spec.pathOf n parts ++ '/' :: b)
    (q r : PurePath) (hq : figFile (Spec.pathOf n parts) a v = .ok (some q))
    (hr : figFile (Spec.pathOf n parts) b v = .ok (some r)) (he : q.asPosix = r.asPosix) : a = b := by
  obtain ⟨q', hq', e1⟩ := C93_file n hn parts hne hp a sa ea v ha has hv
  obtain ⟨r', hr', e2⟩ := C93_file n hn parts hne hp b sb eb v hb hbs hv
  rw [hq] at hq'
  rw [hr] at hr'
  injection hq' with hq'
  injection hq' with hq'
  injection hr' with hr'
  injection hr' with hr'
  subst hq' hr'
  rw [if_neg ham] at e1
  rw [if_neg hbm] at e2
  rw [e1, e2] at he
  have := List.append_cancel_left he
  injection this with _ this
  have h1 := stemSuffix_ext (⟨rfl, by simp, ha.2.2.1, ha.2.2.2⟩ :
    Spec.NameExt (sa ++ '_' :: v ++ '.' :: ea) (sa ++ '_' :: v) ea)
  rw [this] at h1
  rw [stemSuffix_ext (⟨rfl, by simp, hb.2.2.1, hb.2.2.2⟩ :
    Spec.NameExt (sb ++ '_' :: v ++ '.' :: eb) (sb ++ '_' :: v) eb)] at h1
  injection h1 with h2 h3
  rw [List.append_left_inj] at h2
  rw [ha.1, hb.1, h2, h3]

/-- **C93 refuted**: a directory named after one version swallows the figures of another version
whose label is part of it. -/
theorem C93_versions_refuted : figFile "/figs/230101_v1.1.0".toList "ages.pdf".toList "v1.1".toList =
    figFile "/figs/230101_v1.1.0".toList "ages.pdf".toList "v1.1.0".toList ∧
    (figFile "/figs/230101_v1.1.0".toList "ages.pdf".toList "v1.1".toList).isOk = true := by
  decide +kernel

/-- **C93 refuted**: two names can end in one file. -/
theorem C93_figures_refuted : figFile "/figs".toList "ages.pdf".toList "v1".toList =
    figFile "/figs".toList "ages_v1.pdf".toList "v1".toList ∧
    (figFile "/figs".toList "ages.pdf".toList "v1".toList).isOk = true := by
  decide +kernel

/-- **C93 refuted**: a name without an extension gets the end of the version as its extension, so
the figure cannot be written. -/
theorem C93_format_refuted : ∃ q, figFile "/figs".toList "ages".toList "v1.0.0".toList = .ok (some q) ∧
    q.asPosix = "/figs/ages_v1.0.0".toList ∧ (stemSuffix q.name).2 = ".0".toList := by
  refine ⟨⟨['/'], ["figs".toList, "ages_v1.0.0".toList]⟩, ?_⟩
  decide +kernel

/-- The files of the paper's figures. -/
def Spec.figNames : List String :=
  ["bsed_violin.pdf", "crater_basin_ages.pdf", "crater_scaling.pdf", "distance_bsed.pdf", "ejecta_bsed.pdf",
    "kde_layers.pdf", "ejecta_distance.pdf", "volatilized_fraction_bsed.pdf", "random_crater_ages.pdf",
    "strat_cols_bsed.pdf", "strat_cols_seeds.pdf", "surface_boxplot.pdf", "plot_by_module.pdf", "bhop_lat.png",
    "comet_vels.png", "ice_retention.png", "basin_ice.png", "bsed50_violin.png", "comet_violin.png",
    "grid_plots.png", "plot_by_module_time.png"]

/-- **C93** making all figures with their defaults: every figure is saved in the dated directory
under its own name, no two share a file, and every path has the version. -/
theorem C93_default (n : Nat) (hn : n ≤ 2) (parts : List Str) (hp : ∀ c ∈ parts, Spec.Part c) (hne : parts ≠ [])
    (date version : Str) (hd : '/' ∉ date) (hv : '/' ∉ version) :
    ∃ files : List PurePath, generateAll (Spec.pathOf n parts) date version = .ok (files.map some) ∧
      files.map (·.asPosix) = Spec.figNames.map (fun f => Spec.pathOf n parts ++ '/' ::
        (date ++ '_' :: 'v' :: version) ++ '/' :: f.toList) ∧
      (files.map (·.asPosix)).Nodup ∧ ∀ q ∈ files, 'v' :: version <:+: q.asPosix := by
  obtain ⟨lab, hlab⟩ : ∃ t, t = date ++ '_' :: 'v' :: version := ⟨_, rfl⟩
  have hlp : Spec.Part lab := by
    refine ⟨by rw [hlab]; simp, ?_, ?_⟩
    · intro e
      have : '_' ∈ lab := by rw [hlab]; simp
      rw [e] at this
      exact absurd this (by decide)
    · rw [hlab]
      simp only [List.mem_append, List.mem_cons, not_or]
      exact ⟨hd, by decide, by decide, hv⟩
  have hall : ∀ c ∈ parts ++ [lab], Spec.Part c := by
    intro c hc
    rcases List.mem_append.1 hc with h | h
    · exact hp c h
    · rw [List.mem_singleton.1 h]; exact hlp
  have hdir : figDir (Spec.pathOf n parts) date version = Spec.pathOf n (parts ++ [lab]) := by
    unfold figDir
    rw [← hlab, parsePath_of hn hne hp, parsePath_part hlp]
    exact asPosix_of (by simp) hall
  have hinf : ∀ s : Str, 'v' :: version <:+: Spec.pathOf n (parts ++ [lab]) ++ '/' :: s := by
    intro s
    rw [pathOf_concat n hne, hlab]
    exact ⟨Spec.pathOf n parts ++ '/' :: (date ++ ['_']), '/' :: s, by simp⟩
  have hone : ∀ f ∈ figDefaults, ∃ q, figFile (figDir (Spec.pathOf n parts) date version) f.2.1.toList
      (if f.2.2 then versionLabel version else []) = .ok (some q) ∧
      q.asPosix = Spec.pathOf n parts ++ '/' :: lab ++ '/' :: f.2.1.toList := by
    intro f hf
    have hne' : stemSuffix f.2.1.toList ≠ (f.2.1.toList, []) ∧ '/' ∉ f.2.1.toList := by
      have : ∀ f ∈ figDefaults, stemSuffix f.2.1.toList ≠ (f.2.1.toList, []) ∧ '/' ∉ f.2.1.toList := by
        decide +kernel
      exact this f hf
    obtain ⟨stem, ext, hext⟩ := (stemSuffix_inv f.2.1.toList).resolve_left hne'.1
    obtain ⟨w, hw⟩ : ∃ w, w = (if f.2.2 then versionLabel version else []) := ⟨_, rfl⟩
    have hws : '/' ∉ w := by
      rw [hw]
      split
      · unfold versionLabel
        simp only [List.mem_cons, not_or]
        exact ⟨by decide, hv⟩
      · simp
    obtain ⟨q, h1, h2⟩ := C93_file n hn (parts ++ [lab]) (by simp) hall _ _ _ w hext hne'.2 hws
    rw [← hw, hdir]
    refine ⟨q, h1, ?_⟩
    rw [h2, if_pos, pathOf_concat n hne]
    rw [hw]
    split
    · exact hinf _
    · exact List.nil_infix
  have hmap : ∀ l : List (String × String × Bool), (∀ f ∈ l, f ∈ figDefaults) →
      ∃ files : List PurePath, l.mapM (fun f => figFile (figDir (Spec.pathOf n parts) date version)
        f.2.1.toList (if f.2.2 then versionLabel version else [])) = .ok (files.map some) ∧
      files.map (·.asPosix) = l.map (fun f => Spec.pathOf n parts ++ '/' :: lab ++ '/' :: f.2.1.toList) := by
    intro l
    induction l with
    | nil => intro _; exact ⟨[], rfl, rfl⟩
    | cons f l ih =>
      intro hl
      obtain ⟨fs, h1, h2⟩ := ih (fun g hg => hl g (by simp [hg]))
      obtain ⟨q, h3, h4⟩ := hone f (hl f (by simp))
      refine ⟨q :: fs, ?_, ?_⟩
      · rw [List.mapM_cons, h3]
        simp only [bind, Except.bind, h1]
        rfl
      · rw [List.map_cons, List.map_cons, h2, h4]
  obtain ⟨files, h1, h2⟩ := hmap figDefaults (fun _ h => h)
  have hnames : figDefaults.map (fun f => f.2.1) = Spec.figNames := by decide +kernel
  refine ⟨files, h1, by rw [h2, hlab, ← hnames, List.map_map]; rfl, ?_, ?_⟩
  · rw [h2]
    have hnd : (figDefaults.map (fun f => f.2.1.toList)).Nodup := by decide +kernel
    have : figDefaults.map (fun f => Spec.pathOf n parts ++ '/' :: lab ++ '/' :: f.2.1.toList) =
        (figDefaults.map (fun f => f.2.1.toList)).map (fun s => Spec.pathOf n parts ++ '/' :: lab ++ '/' :: s) := by
      rw [List.map_map]; rfl
    rw [this]
    refine List.Nodup.map ?_ hnd
    intro a b hab
    have := List.append_cancel_left hab
    injection this
  · intro q hq
    have : q.asPosix ∈ files.map (·.asPosix) := List.mem_map_of_mem hq
    rw [h2] at this
    obtain ⟨f, -, hf⟩ := List.mem_map.1 this
    rw [← hf]
    have := hinf f.2.1.toList
    rw [pathOf_concat n hne] at this
    exact this

/-- **C93 refuted**: outside the dated directory two figures carry no version. -/
theorem C93_label_refuted : (figDefaults.filter (fun f => !f.2.2)).map (·.1) =
      ["kde_layers", "ice_retention"] ∧
    figFile "/tmp".toList "kde_layers.pdf".toList [] = .ok (some ⟨['/'], ["tmp".toList, "kde_layers.pdf".toList]⟩) ∧
    figFile "/tmp".toList "ice_retention.png".toList [] =
      .ok (some ⟨['/'], ["tmp".toList, "ice_retention.png".toList]⟩) := by
  decide +kernel

/-- The hypotheses hold of ordinary arguments. -/
example : figFile "/home/user/figs".toList "sub.ages.pdf".toList "v1.1.0".toList =
    .ok (some ⟨['/'], ["home".toList, "user".toList, "figs".toList, "sub.ages_v1.1.0.pdf".toList]⟩) ∧
    Spec.NameExt "sub.ages.pdf".toList "sub.ages".toList "pdf".toList ∧
    Spec.pathOf 1 ["home".toList, "user".toList, "figs".toList] = "/home/user/figs".toList := by
  refine ⟨by decide +kernel, ⟨by decide, by decide, by decide, by decide⟩, by decide⟩

/-- An absolute figure name is not put into the figure directory. -/
example : figFile "/home/user/figs".toList "/tmp/ages.pdf".toList "v1.1.0".toList =
    .ok (some ⟨['/'], ["tmp".toList, "ages_v1.1.0.pdf".toList]⟩) ∧
    Spec.pathOf 1 ["tmp".toList] ++ '/' :: "ages.pdf".toList = "/tmp/ages.pdf".toList := by
  refine ⟨by decide +kernel, by decide⟩

/-! ## C94: the directory of the data -/

/-- **C94** the directory found holds the layers, and no directory listed after it does. -/
theorem C94_found (entries : List OutEntry) (d : OutEntry) : getDatedir entries = .ok d ↔
    (d.isDir = true ∧ d.hasLayers = true) ∧ ∃ before after, entries = before ++ d :: after ∧
      ∀ e ∈ after, ¬ (e.isDir = true ∧ e.hasLayers = true) := by
  have key : getDatedir entries = .ok d ↔
      (entries.filter (·.isDir)).reverse.find? (·.hasLayers) = some d := by
    unfold getDatedir
    split
    · rename_i x hx
      rw [hx]
      simp
    · rename_i hx
      rw [hx]
      simp
  rw [key]
  have h2 : (entries.filter (·.isDir)).reverse.find? (·.hasLayers) =
      entries.reverse.find? (fun e => decide (e.isDir = true ∧ e.hasLayers = true)) := by
    rw [← List.filter_reverse, List.find?_filter]
  rw [h2, List.find?_eq_some_iff_append]
  constructor
  · rintro ⟨h, as, bs, he, hn⟩
    refine ⟨by simpa using h, bs.reverse, as.reverse, ?_, ?_⟩
    · rw [← List.reverse_inj, he]; simp
    · intro e hm
      have := hn e (List.mem_reverse.1 hm)
      intro hh
      rw [decide_eq_true hh] at this
      exact absurd this (by decide)
  · rintro ⟨h, as, bs, he, hn⟩
    refine ⟨by simpa using h, bs.reverse, as.reverse, ?_, ?_⟩
    · rw [he]; simp
    · intro e hm
      rw [decide_eq_false (hn e (List.mem_reverse.1 hm))]
      rfl

/-- **C94** it raises exactly when no directory holds the layers. -/
theorem C94_none (entries : List OutEntry) : getDatedir entries = .error .osError ↔
    ∀ e ∈ entries, ¬ (e.isDir = true ∧ e.hasLayers = true) := by
  have key : getDatedir entries = .error .osError ↔
      (entries.filter (·.isDir)).reverse.find? (·.hasLayers) = none := by
    unfold getDatedir
    split
    · rename_i x hx
      rw [hx]
      simp
    · rename_i hx
      rw [hx]
      simp
  rw [key, List.find?_eq_none]
  constructor
  · intro h e he hh
    exact h e (List.mem_reverse.2 (List.mem_filter.2 ⟨he, hh.1⟩)) hh.2
  · intro h e he hh
    obtain ⟨h1, h2⟩ := List.mem_filter.1 (List.mem_reverse.1 he)
    exact h e h1 ⟨h2, hh⟩

/-- **C94** if the names are listed in increasing order, the directory found is the latest. -/
theorem C94_latest_partial (entries : List OutEntry) (d : OutEntry)
    (hs : entries.Pairwise (fun a b => a.name < b.name)) (h : getDatedir entries = .ok d) :
    ∀ e ∈ entries, e.isDir = true → e.hasLayers = true → e = d ∨ e.name < d.name := by
  obtain ⟨-, before, after, rfl, hn⟩ := (C94_found entries d).1 h
  intro e he h1 h2
  rcases List.mem_append.1 he with hb | ha
  · right
    exact (List.pairwise_append.1 hs).2.2 e hb d (by simp)
  · rcases List.mem_cons.1 ha with rfl | ha
    · left; rfl
    · exact absurd ⟨h1, h2⟩ (hn e ha)

/-- **C94 refuted**: the order of the listing decides, and it may give an older directory. -/
theorem C94_latest_refuted : ∃ a b : OutEntry, a.name < b.name ∧
    (a.isDir ∧ a.hasLayers ∧ b.isDir ∧ b.hasLayers) ∧
    getDatedir [a, b] = .ok b ∧ getDatedir [b, a] = .ok a := by
  refine ⟨⟨"230101", true, true⟩, ⟨"230202", true, true⟩, by decide +kernel, by decide, by decide, by decide⟩

/-- The hypotheses of `C94_latest_partial` hold of a listing with a file and an unfinished run. -/
example : ([⟨"230101", true, true⟩, ⟨"230202", true, true⟩, ⟨"230303", true, false⟩,
      ⟨"notes.txt", false, false⟩] : List OutEntry).Pairwise (fun a b => a.name < b.name) ∧
    getDatedir [⟨"230101", true, true⟩, ⟨"230202", true, true⟩, ⟨"230303", true, false⟩,
      ⟨"notes.txt", false, false⟩] = .ok ⟨"230202", true, true⟩ := by
  decide +kernel

end MoonPIES
