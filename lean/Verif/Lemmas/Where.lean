import Verif.Lemmas.SeedSpec
import Verif.Lemmas.PosixPath
import Verif.Spec.Where

/-!
# Lemmas on paths given as lists of names
-/

namespace MoonPIES

open Spec

theorem fileName_ordinary {s : Str} (h : FileName s) : Ordinary s := ⟨h.1, h.2.2.1, h.2.2.2, h.2.1⟩

theorem inDir_append (a b : List Str) : inDir (a ++ b) = inDir a ++ inDir b := by
  simp [inDir]

theorem inDir_snoc (a : List Str) (s : Str) : inDir (a ++ [s]) = inDir a ++ '/' :: s := by
  simp [inDir]

theorem inDir_head {ns : List Str} (h : ns ≠ []) : (inDir ns).head? = some '/' := by
  cases ns with
  | nil => exact absurd rfl h
  | cons a t => rfl

theorem inDir_ne_nil {ns : List Str} (h : ns ≠ []) : inDir ns ≠ [] := by
  cases ns with
  | nil => exact absurd rfl h
  | cons a t => simp [inDir]

theorem inDir_last {ns : List Str} (h : ∀ b ∈ ns, FileName b) : (inDir ns).getLast? ≠ some '/' := by
  rcases List.eq_nil_or_concat ns with rfl | ⟨a, s, rfl⟩
  · simp [inDir]
  · rw [List.concat_eq_append, inDir_snoc]
    have hs := h s (by simp)
    rw [getLast?_append_ne _ (by simp), List.getLast?_cons_of_ne_nil hs.1]
    intro e
    exact hs.2.1 (List.mem_of_getLast? e)

theorem inDir_join {ns : List Str} (h0 : ns ≠ []) (h : ∀ b ∈ ns, FileName b) {s : Str} (hs : s.head? ≠ some '/') :
    pathJoin (inDir ns) s = inDir ns ++ '/' :: s := by
  unfold pathJoin
  rw [if_neg hs, if_neg]
  rintro (e | e)
  · exact inDir_ne_nil h0 e
  · exact inDir_last h e

theorem fileName_head {s : Str} (h : FileName s) : s.head? ≠ some '/' :=
  ordinary_head (fileName_ordinary h)

theorem inDir_joinName {ns : List Str} (h0 : ns ≠ []) (h : ∀ b ∈ ns, FileName b) {s : Str} (hs : FileName s) :
    pathJoin (inDir ns) s = inDir (ns ++ [s]) := by
  rw [inDir_join h0 h (fileName_head hs), inDir_snoc]

/-- Joining to a directory written with slashes at its end. -/
theorem inDir_slash_join (ns : List Str) (k : Nat) {s : Str} (hs : s.head? ≠ some '/') :
    pathJoin (inDir ns ++ List.replicate (k + 1) '/') s = inDir ns ++ List.replicate k '/' ++ '/' :: s := by
  unfold pathJoin
  rw [if_neg hs, if_pos (Or.inr (by simp [List.replicate_succ']))]
  simp [List.replicate_succ']

theorem inDir_split {ns : List Str} (h : ∀ b ∈ ns, FileName b) : splitSlash (inDir ns) = [] :: ns := by
  induction ns with
  | nil => rfl
  | cons a t ih =>
    have ih := ih (fun b hb => h b (by simp [hb]))
    have ha := h a (by simp)
    cases t with
    | nil =>
      show splitSlash ('/' :: (a ++ [])) = _
      rw [List.append_nil, splitSlash_cons, if_pos rfl, splitSlash_noSlash ha.2.1]
    | cons b t =>
      show splitSlash ('/' :: (a ++ '/' :: (b ++ inDir t))) = _
      rw [splitSlash_cons, if_pos rfl, splitSlash_append, splitSlash_noSlash ha.2.1]
      have e : splitSlash (inDir (b :: t)) = splitSlash ('/' :: (b ++ inDir t)) := rfl
      rw [e, splitSlash_cons, if_pos rfl] at ih
      rw [(List.cons.inj ih).2]
      rfl

theorem inDir_normal {ns : List Str} (h : ∀ b ∈ ns, FileName b) : NormalComps ns :=
  fun c hc => ⟨(h c hc).1, (h c hc).2.2.1, (h c hc).2.2.2, (h c hc).2.1⟩

theorem inDir_comps {ns : List Str} (h : ∀ b ∈ ns, FileName b) : comps (inDir ns) = ns := by
  unfold comps
  rw [inDir_split h, normComps_cons, if_pos (Or.inl rfl), normComps_id _ (inDir_normal h)]
  rfl

theorem inDir_slashes {ns : List Str} (h0 : ns ≠ []) (h : ∀ b ∈ ns, FileName b) (y : Str) :
    initialSlashes (inDir ns ++ y) = 1 := by
  cases ns with
  | nil => exact absurd rfl h0
  | cons a t =>
    have ha := h a (by simp)
    cases a with
    | nil => exact absurd rfl ha.1
    | cons c cs =>
      show initialSlashes ('/' :: c :: (cs ++ inDir t ++ y)) = 1
      refine initialSlashes_one ?_ _
      rintro rfl
      exact ha.2.1 (by simp)

theorem canon_inDir {ns : List Str} (h0 : ns ≠ []) : canon 1 ns = inDir ns := by
  induction ns with
  | nil => exact absurd rfl h0
  | cons a t ih =>
    cases t with
    | nil => simp [canon, inDir, joinSlash]
    | cons b t =>
      have := ih (by simp)
      simp only [canon, List.replicate_one, List.singleton_append] at this ⊢
      show '/' :: (a ++ '/' :: joinSlash (b :: t)) = '/' :: (a ++ inDir (b :: t))
      rw [this]

/-- Normalising an absolute path that starts with ordinary directories. -/
theorem abs_inDir (cwd : Str) (userHome : Str → Option Str) {ns ms : List Str} (h0 : ns ≠ [])
    (h : ∀ b ∈ ns, FileName b) {y : Str} (hc : comps (inDir ns ++ y) = ms) (hm : ms ≠ []) :
    absPath cwd (inDir ns ++ y) = inDir ms ∧
    absPath cwd (expandUser userHome (inDir ns ++ y)) = inDir ms := by
  have hh : (inDir ns ++ y).head? = some '/' := by
    rw [List.head?_append, inDir_head h0]; rfl
  have e : absPath cwd (inDir ns ++ y) = inDir ms := by
    unfold absPath
    rw [if_pos hh, normPath_abs hh, inDir_slashes h0 h, hc, canon_inDir hm]
  refine ⟨e, ?_⟩
  rw [absPath_eq, preAbs_of_abs cwd userHome hh, normPath_abs hh, inDir_slashes h0 h, hc, canon_inDir hm]

theorem comps_inDir_slash {ns : List Str} (h : ∀ b ∈ ns, FileName b) (k : Nat) :
    comps (inDir ns ++ List.replicate k '/') = ns := by
  rw [comps_replicate, inDir_comps h]

theorem comps_tail (x y : Str) : comps (x ++ '/' :: y) = normComps true (comps x).reverse (splitSlash y) := by
  unfold comps
  rw [splitSlash_append, normComps_append]

theorem comps_file {ns : List Str} (h : ∀ b ∈ ns, FileName b) (k : Nat) {f : Str} (hf : FileName f) :
    comps (inDir ns ++ List.replicate k '/' ++ '/' :: f) = ns ++ [f] := by
  rw [comps_tail, comps_inDir_slash h, splitSlash_noSlash hf.2.1,
    normComps_id [f] (by intro c hc; simp at hc; subst hc; exact fileName_ordinary hf), List.reverse_reverse]

/-- Two steps up and into another directory. -/
theorem comps_up {ns : List Str} (h : ∀ b ∈ ns, FileName b) {r t f : Str} (hr : FileName r) (ht : FileName t)
    (hf : FileName f) (k : Nat) :
    comps (inDir (ns ++ [r, t]) ++ List.replicate k '/' ++
      '/' :: ("..".toList ++ '/' :: ("..".toList ++ '/' :: f))) = ns ++ [f] := by
  have hn : ∀ b ∈ ns ++ [r, t], FileName b := by
    intro b hb
    rcases List.mem_append.1 hb with hb | hb
    · exact h b hb
    · simp only [List.mem_cons, List.not_mem_nil, or_false] at hb
      rcases hb with rfl | rfl
      · exact hr
      · exact ht
  rw [comps_tail, comps_inDir_slash hn, splitSlash_append, splitSlash_append,
    splitSlash_noSlash hf.2.1, splitSlash_noSlash (s := "..".toList) (by decide)]
  rw [List.reverse_append]
  show normComps true (t :: r :: ns.reverse) ["..".toList, "..".toList, f] = _
  have dd : ∀ (x : Str) (l : List Str) (cs : List Str), FileName x →
      normComps true (x :: l) ("..".toList :: cs) = normComps true l cs := by
    intro x l cs hx
    rw [normComps_cons, if_neg (by decide), if_neg]
    · rfl
    · rintro (e | e | e)
      · exact e rfl
      · simp at e
      · simp only [List.head?_cons, Option.some.injEq] at e
        exact hx.2.2.2 e
  rw [dd t _ _ ht, dd r _ _ hr, normComps_id [f] (by intro c hc; simp at hc; subst hc; exact fileName_ordinary hf)]
  simp

theorem baseName_inDir {ns : List Str} {r : Str} (hr : FileName r) : baseName (inDir (ns ++ [r])) = r := by
  rw [inDir_snoc]
  have : inDir ns ++ '/' :: r = inDir ns ++ ['/'] ++ r := by simp
  rw [this, baseName_append (Or.inr (by simp)) hr.2.1]

theorem dirName_inDir {ns : List Str} (h0 : ns ≠ []) (h : ∀ b ∈ ns, FileName b) {r : Str} (hr : FileName r) :
    dirName (inDir (ns ++ [r])) = inDir ns := by
  have hd : ((inDir (ns ++ [r])).reverse.dropWhile (fun c => c != '/')).reverse = inDir ns ++ ['/'] := by
    rw [inDir_snoc, List.reverse_append, List.reverse_cons, List.append_assoc,
      List.dropWhile_append_of_pos (by
        intro c hc
        have : c ≠ '/' := by rintro rfl; exact hr.2.1 (List.mem_reverse.1 hc)
        simpa using this)]
    simp
  unfold dirName
  simp only [hd]
  rw [if_neg, rstripSlash_slash]
  · unfold rstripSlash
    have hl := inDir_last h
    rw [← List.head?_reverse] at hl
    cases e : (inDir ns).reverse with
    | nil => exact absurd (by simpa using e) (inDir_ne_nil h0)
    | cons c cs =>
      rw [e] at hl
      have : c ≠ '/' := by rintro rfl; exact hl rfl
      rw [List.dropWhile_cons_of_neg (by simpa using this), ← e, List.reverse_reverse]
  · intro hall
    have hl := inDir_last h
    obtain ⟨c, hc⟩ : ∃ c, (inDir ns).getLast? = some c := by
      cases e : (inDir ns).getLast? with
      | none => exact absurd (List.getLast?_eq_none_iff.1 e) (inDir_ne_nil h0)
      | some c => exact ⟨c, rfl⟩
    rw [List.all_eq_true] at hall
    have := hall c (List.mem_append_left _ (List.mem_of_getLast? hc))
    have : c = '/' := by simpa using this
    rw [this] at hc
    exact hl hc

theorem normPath_inDir {ns : List Str} (h0 : ns ≠ []) (h : ∀ b ∈ ns, FileName b) (k : Nat) :
    normPath (inDir ns ++ List.replicate k '/') = inDir ns := by
  have hh : (inDir ns ++ List.replicate k '/').head? = some '/' := by
    rw [List.head?_append, inDir_head h0]; rfl
  rw [normPath_abs hh, inDir_slashes h0 h, comps_inDir_slash h, canon_inDir h0]

/-- Joining a name to a directory with or without slashes at its end. -/
theorem dir_join {ns : List Str} (h0 : ns ≠ []) (h : ∀ b ∈ ns, FileName b) (k : Nat) {s : Str} (hs : FileName s) :
    ∃ j, pathJoin (inDir ns ++ List.replicate k '/') s = inDir ns ++ List.replicate j '/' ++ '/' :: s := by
  cases k with
  | zero => exact ⟨0, by simpa using inDir_join h0 h (fileName_head hs)⟩
  | succ k => exact ⟨k, inDir_slash_join ns k (fileName_head hs)⟩

end MoonPIES
