import Verif.Lemmas.PosixPath
import Verif.Model.Files

/-!
# Lemmas about saving files
-/

namespace MoonPIES

variable {α : Type}

/-- Spec: the name of the file of an array: with the extension `.npy`, added if it is not there. -/
def Spec.npyFile (f : Str) : Str := if f.reverse.take 4 = ['y', 'p', 'n', '.'] then f else f ++ ['.', 'n', 'p', 'y']

theorem npyName_eq (f : Str) : npyName f = Spec.npyFile f := by
  unfold npyName Spec.npyFile
  have : (".npy".toList.isSuffixOf f = true) ↔ f.reverse.take 4 = ['y', 'p', 'n', '.'] := by
    rw [List.isSuffixOf_iff_suffix, ← List.reverse_prefix]
    constructor
    · rintro ⟨t, ht⟩
      rw [← ht]; rfl
    · intro h
      refine ⟨f.reverse.drop 4, ?_⟩
      have := List.take_append_drop 4 f.reverse
      rw [h] at this
      exact this
  by_cases h : ".npy".toList.isSuffixOf f = true
  · rw [if_pos h, if_pos (this.1 h)]
  · rw [if_neg h, if_neg (fun h' => h (this.2 h'))]; rfl

/-- Where one output goes and what is stored there; nothing for other objects. -/
def target (cwd : Str) : Out α × Str → Option (Loc × α)
  | (.frame a, f) => some (locate cwd f, a)
  | (.array a, f) => some (locate cwd (Spec.npyFile f), a)
  | (.cfg a, f) => some (locate cwd f, a)
  | (.other, _) => none

/-- Directories `fs'` has and `fs` has not lie on the way to `dir`; files agree except in `S`. -/
structure Grown (fs fs' : FS α) (D S : Loc → Prop) : Prop where
  dirs : ∀ l, fs.isDir l = true → fs'.isDir l = true
  newDirs : ∀ l, fs'.isDir l = true → fs.isDir l = true ∨ D l
  files : ∀ l, ¬ S l → fs'.file l = fs.file l

theorem Grown.refl (fs : FS α) (D S : Loc → Prop) : Grown fs fs D S :=
  ⟨fun _ h => h, fun _ h => Or.inl h, fun _ _ => rfl⟩

theorem Grown.trans {fs fs' fs'' : FS α} {D S : Loc → Prop} (h : Grown fs fs' D S)
    (h' : Grown fs' fs'' D S) : Grown fs fs'' D S := by
  refine ⟨fun l hl => h'.dirs l (h.dirs l hl), ?_, fun l hl => (h'.files l hl).trans (h.files l hl)⟩
  intro l hl
  rcases h'.newDirs l hl with h1 | h1
  · exact h.newDirs l h1
  · exact Or.inr h1

theorem Grown.mono {fs fs' : FS α} {D S D' S' : Loc → Prop} (h : Grown fs fs' D S)
    (hD : ∀ l, D l → D' l) (hS : ∀ l, S l → S' l) : Grown fs fs' D' S' :=
  ⟨h.dirs, fun l hl => (h.newDirs l hl).imp_right (hD l), fun l hl => h.files l (fun h' => hl (hS l h'))⟩

/-- Locations an operation may touch. -/
def Op.dirsOf (cwd : Str) : Op α → Loc → Prop
  | .makedirs p, l => l <+: locate cwd p
  | _, _ => False

/-- See `Op.dirsOf`. -/
def Op.filesOf (cwd : Str) : Op α → Loc → Prop
  | .makedirs _, _ => False
  | .create p, l => l = locate cwd p
  | .fill p _, l => l = locate cwd p

theorem step_grown {cwd : Str} {fs fs' : FS α} {op : Op α} (h : step cwd fs op = .ok fs') :
    Grown fs fs' (op.dirsOf cwd) (op.filesOf cwd) := by
  cases op with
  | makedirs p =>
    unfold step at h
    simp only [] at h
    split at h
    · cases h
    · split at h
      · cases h
      · split at h
        · cases h
        · cases h
          refine ⟨fun l hl => by simp [hl], fun l hl => ?_, fun _ _ => rfl⟩
          simp only [Bool.or_eq_true, decide_eq_true_eq] at hl
          exact hl
  | create p =>
    unfold step at h
    simp only [] at h
    split at h
    · cases h
    · split at h
      · cases h
      · split at h
        · cases h
        · cases h
          refine ⟨fun l hl => hl, fun l hl => Or.inl hl, fun l hl => ?_⟩
          exact if_neg hl
  | fill p a =>
    unfold step at h
    cases h
    exact ⟨fun l hl => hl, fun l hl => Or.inl hl, fun l hl => if_neg hl⟩

theorem step_error {cwd : Str} {fs : FS α} {op : Op α} {e : PyErr} (h : step cwd fs op = .error e) :
    e = .osError := by
  cases op with
  | makedirs p =>
    unfold step at h
    simp only [] at h
    split at h
    · cases h; rfl
    · split at h
      · cases h; rfl
      · split at h
        · cases h; rfl
        · cases h
  | create p =>
    unfold step at h
    simp only [] at h
    split at h
    · cases h; rfl
    · split at h
      · cases h; rfl
      · split at h
        · cases h; rfl
        · cases h
  | fill p a => unfold step at h; cases h

theorem stepAll_cons (cwd : Str) (fs : FS α) (op : Op α) (ops : List (Op α)) :
    stepAll cwd fs (op :: ops) = match step cwd fs op with
    | .error e => ([], .error e)
    | .ok fs' => (fs' :: (stepAll cwd fs' ops).1, (stepAll cwd fs' ops).2) := rfl

theorem stepAll_grown {cwd : Str} {D S : Loc → Prop} : ∀ (ops : List (Op α)) (fs : FS α),
    (∀ op ∈ ops, (∀ l, op.dirsOf cwd l → D l) ∧ ∀ l, op.filesOf cwd l → S l) →
    (∀ fs' ∈ (stepAll cwd fs ops).1, Grown fs fs' D S) ∧
    (∀ fs', (stepAll cwd fs ops).2 = .ok fs' → Grown fs fs' D S) ∧
    ∀ e, (stepAll cwd fs ops).2 = .error e → e = .osError := by
  intro ops
  induction ops with
  | nil =>
    intro fs _
    refine ⟨fun fs' h => by simp [stepAll] at h, fun fs' h => ?_, fun e h => by cases h⟩
    cases h; exact Grown.refl _ _ _
  | cons op ops ih =>
    intro fs h
    rw [stepAll_cons]
    cases hs : step cwd fs op with
    | error e =>
      refine ⟨fun fs' h => (by simp at h), fun fs' h => (by cases h), fun e' h => ?_⟩
      cases h; exact step_error hs
    | ok fs1 =>
      obtain ⟨i1, i2, i3⟩ := ih fs1 (fun o ho => h o (List.mem_cons_of_mem _ ho))
      have g := (step_grown hs).mono (h op List.mem_cons_self).1 (h op List.mem_cons_self).2
      refine ⟨?_, ?_, i3⟩
      · intro fs' hfs
        rcases List.mem_cons.1 hfs with rfl | hfs
        · exact g
        · exact g.trans (i1 fs' hfs)
      · intro fs' hfs
        exact g.trans (i2 fs' hfs)

theorem saveOutputs_cons (cwd : Str) (fs : FS α) (o : Out α) (f : Str) (rest : List (Out α × Str)) :
    saveOutputs cwd fs ((o, f) :: rest) =
    match (stepAll cwd fs (saveOps cwd fs o f)).2 with
    | .error e => ((stepAll cwd fs (saveOps cwd fs o f)).1, .error e)
    | .ok fs' => ((stepAll cwd fs (saveOps cwd fs o f)).1 ++ (saveOutputs cwd fs' rest).1,
        (saveOutputs cwd fs' rest).2) := rfl

/-- Directories that saving may make. -/
def dirsFor (cwd : Str) (items : List (Out α × Str)) (l : Loc) : Prop :=
  ∃ x ∈ items, l <+: locate cwd (dirName x.2)

/-- Files that saving may change. -/
def filesFor (cwd : Str) (items : List (Out α × Str)) (l : Loc) : Prop :=
  ∃ x ∈ items, ∃ a, target cwd x = some (l, a)

theorem saveOps_touch (cwd : Str) (fs : FS α) (o : Out α) (f : Str) : ∀ op ∈ saveOps cwd fs o f,
    (∀ l, op.dirsOf cwd l → l <+: locate cwd (dirName f)) ∧
    ∀ l, op.filesOf cwd l → ∃ a, target cwd (o, f) = some (l, a) := by
  intro op hop
  unfold saveOps at hop
  rcases List.mem_append.1 hop with h | h
  · split at h
    · simp at h
    · simp only [List.mem_singleton] at h
      subst h
      exact ⟨fun l hl => hl, fun l hl => hl.elim⟩
  · cases o with
    | other => simp at h
    | _ a =>
      simp only [List.mem_cons, List.not_mem_nil, or_false] at h
      rcases h with rfl | rfl
      · refine ⟨fun l hl => hl.elim, fun l hl => ⟨a, ?_⟩⟩
        have : l = _ := hl
        rw [this]
        first | rfl | (rw [npyName_eq]; rfl)
      · refine ⟨fun l hl => hl.elim, fun l hl => ⟨a, ?_⟩⟩
        have : l = _ := hl
        rw [this]
        first | rfl | (rw [npyName_eq]; rfl)

theorem saveOutputs_grown (cwd : Str) : ∀ (items : List (Out α × Str)) (fs : FS α),
    (∀ fs' ∈ (saveOutputs cwd fs items).1, Grown fs fs' (dirsFor cwd items) (filesFor cwd items)) ∧
    (∀ fs', (saveOutputs cwd fs items).2 = .ok fs' →
      Grown fs fs' (dirsFor cwd items) (filesFor cwd items)) ∧
    ∀ e, (saveOutputs cwd fs items).2 = .error e → e = .osError := by
  intro items
  induction items with
  | nil =>
    intro fs
    refine ⟨fun fs' h => by simp [saveOutputs] at h, fun fs' h => ?_, fun e h => by cases h⟩
    cases h; exact Grown.refl _ _ _
  | cons x rest ih =>
    intro fs
    obtain ⟨o, f⟩ := x
    obtain ⟨a1, a2, a3⟩ := stepAll_grown (D := dirsFor cwd ((o, f) :: rest))
      (S := filesFor cwd ((o, f) :: rest)) (saveOps cwd fs o f) fs (by
        intro op hop
        obtain ⟨h1, h2⟩ := saveOps_touch cwd fs o f op hop
        exact ⟨fun l hl => ⟨_, List.mem_cons_self, h1 l hl⟩, fun l hl => ⟨_, List.mem_cons_self, h2 l hl⟩⟩)
    rw [saveOutputs_cons]
    cases hs : (stepAll cwd fs (saveOps cwd fs o f)).2 with
    | error e =>
      refine ⟨a1, fun fs' h => (by cases h), fun e' h => ?_⟩
      cases h; exact a3 _ hs
    | ok fs1 =>
      obtain ⟨i1, i2, i3⟩ := ih fs1
      have g := a2 fs1 hs
      have hm : ∀ fs2, Grown fs1 fs2 (dirsFor cwd rest) (filesFor cwd rest) →
          Grown fs fs2 (dirsFor cwd ((o, f) :: rest)) (filesFor cwd ((o, f) :: rest)) := by
        intro fs2 h
        refine g.trans (h.mono ?_ ?_)
        · rintro l ⟨y, hy, hl⟩; exact ⟨y, List.mem_cons_of_mem _ hy, hl⟩
        · rintro l ⟨y, hy, hl⟩; exact ⟨y, List.mem_cons_of_mem _ hy, hl⟩
      refine ⟨?_, fun fs2 h => hm fs2 (i2 fs2 h), i3⟩
      intro fs2 hfs
      rcases List.mem_append.1 hfs with hfs | hfs
      · exact a1 fs2 hfs
      · exact hm fs2 (i1 fs2 hfs)

/-- After saving one output its content is complete. -/
theorem saveOne_content {cwd : Str} {fs fs' : FS α} {o : Out α} {f : Str} {l : Loc} {a : α}
    (ht : target cwd (o, f) = some (l, a))
    (h : (stepAll cwd fs (saveOps cwd fs o f)).2 = .ok fs') : fs'.file l = some (some a) := by
  have key : ∀ (g : Str) (pre : List (Op α)) (fs : FS α),
      (stepAll cwd fs (pre ++ [.create g, .fill g a])).2 = .ok fs' →
      fs'.file (locate cwd g) = some (some a) := by
    intro g pre
    induction pre with
    | nil =>
      intro fs h
      rw [List.nil_append, stepAll_cons] at h
      cases hs : step cwd fs (.create g) with
      | error e => rw [hs] at h; cases h
      | ok fs1 =>
        rw [hs] at h
        simp only [step, stepAll] at h
        cases h
        simp
    | cons op pre ih =>
      intro fs h
      rw [List.cons_append, stepAll_cons] at h
      cases hs : step cwd fs op with
      | error e => rw [hs] at h; cases h
      | ok fs1 =>
        rw [hs] at h
        exact ih fs1 h
  cases o with
  | other => cases ht
  | _ b =>
    unfold target at ht
    cases ht
    unfold saveOps at h
    simp only [npyName_eq] at h
    exact key _ _ fs h

/-- After successful saving each output is stored in its file, if no two share one. -/
theorem saveOutputs_content (cwd : Str) : ∀ (items : List (Out α × Str)) (fs fs' : FS α),
    (saveOutputs cwd fs items).2 = .ok fs' →
    ((items.filterMap (target cwd)).map (·.1)).Nodup →
    ∀ x ∈ items, ∀ l a, target cwd x = some (l, a) → fs'.file l = some (some a) := by
  intro items
  induction items with
  | nil => intro fs fs' _ _ x hx; simp at hx
  | cons y rest ih =>
    intro fs fs' h hnd x hx l a ht
    obtain ⟨o, f⟩ := y
    rw [saveOutputs_cons] at h
    cases hs : (stepAll cwd fs (saveOps cwd fs o f)).2 with
    | error e => rw [hs] at h; cases h
    | ok fs1 =>
      rw [hs] at h
      simp only [] at h
      have hnd' : ((rest.filterMap (target cwd)).map (·.1)).Nodup := by
        rw [List.filterMap_cons] at hnd
        split at hnd
        · exact hnd
        · rw [List.map_cons, List.nodup_cons] at hnd; exact hnd.2
      rcases List.mem_cons.1 hx with rfl | hx
      · have h1 := saveOne_content ht hs
        rw [← h1]
        refine ((saveOutputs_grown cwd rest fs1).2.1 fs' h).files l ?_
        rintro ⟨z, hz, b, hb⟩
        rw [List.filterMap_cons, ht, List.map_cons, List.nodup_cons] at hnd
        exact hnd.1 (List.mem_map.2 ⟨(l, b), List.mem_filterMap.2 ⟨z, hz, hb⟩, rfl⟩)
      · exact ih fs1 fs' h hnd' x hx l a ht

/-! ## Locations -/

theorem locate_join (cwd : Str) (hc : cwd.head? = some '/') {x b : Str} (hx : x ≠ []) (hb : Ordinary b) :
    locate cwd (pathJoin x b) = locate cwd x ++ [b] := by
  unfold locate
  have hh : (pathJoin x b).head? = x.head? := by
    rw [pathJoin_ordinary hb]
    cases x with
    | nil => exact absurd rfl hx
    | cons c cs => split <;> rfl
  rw [hh]
  by_cases h : x.head? = some '/'
  · rw [if_pos h, if_pos h]
    exact (comps_join h hb).1
  · rw [if_neg h, if_neg h, pathJoin_assoc hx h hb]
    exact (comps_join (pathJoin_head hc) hb).1

theorem locate_abs (cwd : Str) {x : Str} (hx : x.head? = some '/') : locate cwd x = comps x := by
  unfold locate
  rw [if_pos hx]; rfl

theorem dirName_join {x b : Str} (hb : Ordinary b) :
    dirName (pathJoin x b) = if x = [] then [] else if x.all (fun c => c == '/') then
      x else rstripSlash x := by
  have hrev : ∀ p : Str, ((p ++ b).reverse.dropWhile (fun c => c != '/')).reverse =
      (p.reverse.dropWhile (fun c => c != '/')).reverse := by
    intro p
    rw [List.reverse_append, List.dropWhile_append_of_pos (by
      intro c hc
      have := List.mem_reverse.1 hc
      simp only [bne_iff_ne, ne_eq]
      rintro rfl
      exact hb.2.2.2 this)]
  have hend : ∀ p : Str, ((p ++ ['/']).reverse.dropWhile (fun c => c != '/')).reverse = p ++ ['/'] := by
    intro p
    rw [List.reverse_append]
    show (List.dropWhile _ ('/' :: p.reverse)).reverse = _
    rw [List.dropWhile_cons_of_neg (by simp), List.reverse_cons, List.reverse_reverse]
  rw [pathJoin_ordinary hb]
  by_cases hx : x = []
  · subst hx
    rw [if_pos (Or.inl rfl), if_pos rfl]
    unfold dirName
    simp only [hrev]
    rfl
  · rw [if_neg hx]
    by_cases hl : x.getLast? = some '/'
    · rw [if_pos (Or.inr hl)]
      obtain ⟨y, rfl⟩ := ends_slash hl
      unfold dirName
      simp only [hrev, hend]
    · rw [if_neg (by simp [hx, hl])]
      have e : x ++ '/' :: b = (x ++ ['/']) ++ b := by simp
      unfold dirName
      rw [e]
      simp only [hrev, hend, rstripSlash_slash]
      have hall : x.all (fun c => c == '/') = false := by
        rw [List.all_eq_false]
        refine ⟨x.getLast hx, List.getLast_mem hx, ?_⟩
        rw [List.getLast?_eq_some_getLast hx] at hl
        simpa using hl
      rw [List.all_append, hall]
      simp

theorem locate_slash (cwd x : Str) (hx : x ≠ []) : locate cwd (x ++ ['/']) = locate cwd x := by
  unfold locate
  have hh : (x ++ ['/']).head? = x.head? := by
    cases x with
    | nil => exact absurd rfl hx
    | cons c cs => rfl
  rw [hh]
  by_cases h : x.head? = some '/'
  · rw [if_pos h, if_pos h]; exact comps_slash x
  · rw [if_neg h, if_neg h]
    have : pathJoin cwd (x ++ ['/']) = pathJoin cwd x ++ ['/'] := by
      unfold pathJoin
      rw [hh, if_neg h, if_neg h]
      split <;> simp
    rw [this]; exact comps_slash _

theorem rstripSlash_decomp (x : Str) : ∃ k, x = rstripSlash x ++ List.replicate k '/' := by
  unfold rstripSlash
  refine ⟨(x.reverse.takeWhile (fun c => c == '/')).length, ?_⟩
  have h := List.takeWhile_append_dropWhile (p := fun c => c == '/') (l := x.reverse)
  have h2 : x.reverse.takeWhile (fun c => c == '/') =
      List.replicate (x.reverse.takeWhile (fun c => c == '/')).length '/' := by
    apply List.eq_replicate_of_mem
    intro c hc
    have : ∀ (l : Str), ∀ c ∈ l.takeWhile (fun c => c == '/'), c = '/' := by
      intro l
      induction l with
      | nil => intro c hc; simp at hc
      | cons a l ih =>
        intro c hc
        by_cases ha : (a == '/') = true
        · rw [List.takeWhile_cons_of_pos (p := fun c => c == '/') ha] at hc
          rcases List.mem_cons.1 hc with rfl | hc
          · simpa using ha
          · exact ih c hc
        · rw [List.takeWhile_cons_of_neg (p := fun c => c == '/') ha] at hc; simp at hc
    exact this _ c hc
  have h3 : x = (x.reverse.dropWhile (fun c => c == '/')).reverse ++
      (x.reverse.takeWhile (fun c => c == '/')).reverse := by
    rw [← List.reverse_append, h, List.reverse_reverse]
  rw [h2, List.reverse_replicate] at h3
  exact h3

theorem locate_rstrip (cwd x : Str) (hx : rstripSlash x ≠ []) : locate cwd (rstripSlash x) = locate cwd x := by
  obtain ⟨k, hk⟩ := rstripSlash_decomp x
  have : ∀ k, locate cwd (rstripSlash x ++ List.replicate k '/') = locate cwd (rstripSlash x) := by
    intro k
    induction k with
    | zero => simp
    | succ k ih =>
      rw [List.replicate_succ', ← List.append_assoc, locate_slash _ _ (by simp [hx]), ih]
  rw [← this k, ← hk]

/-- The directory of a file `b` in `x` is `x`. -/
theorem locate_dirName (cwd : Str) {x b : Str} (hx : x ≠ []) (hb : Ordinary b) :
    dirName (pathJoin x b) ≠ [] ∧ locate cwd (dirName (pathJoin x b)) = locate cwd x := by
  rw [dirName_join hb, if_neg hx]
  split
  · exact ⟨hx, rfl⟩
  · rename_i hall
    have hne : rstripSlash x ≠ [] := by
      intro e
      obtain ⟨k, hk⟩ := rstripSlash_decomp x
      rw [e, List.nil_append] at hk
      apply hall
      rw [hk, List.all_eq_true]
      intro c hc
      rw [List.eq_of_mem_replicate hc]; rfl
    exact ⟨hne, locate_rstrip cwd x hne⟩

end MoonPIES
