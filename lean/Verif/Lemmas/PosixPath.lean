import Verif.Model.PosixPath
import Mathlib.Tactic.Tauto

/-!
# Lemmas about POSIX paths
-/

namespace MoonPIES

/-! ## Splitting and joining -/

theorem splitSlash_cons (c : Char) (cs : Str) : splitSlash (c :: cs) =
    if c = '/' then [] :: splitSlash cs
    else match splitSlash cs with
      | [] => [[c]]
      | h :: t => (c :: h) :: t := rfl

theorem normComps_cons (abs : Bool) (acc : List Str) (c : Str) (cs : List Str) :
    normComps abs acc (c :: cs) =
      if c = [] ∨ c = ['.'] then normComps abs acc cs
      else if c ≠ ['.', '.'] ∨ (abs = false ∧ acc = []) ∨ acc.head? = some ['.', '.'] then
        normComps abs (c :: acc) cs
      else normComps abs acc.tail cs := rfl

theorem initialSlashes_one {c : Char} (h : c ≠ '/') (r : Str) : initialSlashes ('/' :: c :: r) = 1 := by
  unfold initialSlashes
  split <;> simp_all

theorem initialSlashes_two {c : Char} (h : c ≠ '/') (r : Str) :
    initialSlashes ('/' :: '/' :: c :: r) = 2 := by
  unfold initialSlashes
  split
  · simp_all
  · rfl
  · rename_i t h1 h2 h3
    simp only [List.cons.injEq, true_and] at h3
    exact absurd h3.symm (h2 _)
  · simp_all

theorem splitSlash_ne_nil (s : Str) : splitSlash s ≠ [] := by
  cases s with
  | nil => simp [splitSlash]
  | cons c cs =>
    unfold splitSlash
    split
    · simp
    · split <;> simp

theorem splitSlash_append (a b : Str) : splitSlash (a ++ '/' :: b) = splitSlash a ++ splitSlash b := by
  induction a with
  | nil => simp [splitSlash]
  | cons c cs ih =>
    rw [List.cons_append]
    rw [splitSlash_cons, splitSlash_cons]
    by_cases h : c = '/'
    · rw [if_pos h, if_pos h, ih]; rfl
    · rw [if_neg h, if_neg h, ih]
      cases hs : splitSlash cs with
      | nil => exact absurd hs (splitSlash_ne_nil cs)
      | cons x xs => rfl

theorem splitSlash_noSlash {s : Str} (h : '/' ∉ s) : splitSlash s = [s] := by
  induction s with
  | nil => rfl
  | cons c cs ih =>
    rw [List.mem_cons, not_or] at h
    unfold splitSlash
    rw [if_neg (fun e => h.1 e.symm), ih h.2]

theorem mem_splitSlash {s c : Str} (h : c ∈ splitSlash s) : '/' ∉ c := by
  induction s generalizing c with
  | nil => simp [splitSlash] at h; simp [h]
  | cons x xs ih =>
    unfold splitSlash at h
    split at h
    · rcases List.mem_cons.1 h with rfl | h
      · simp
      · exact ih h
    · rename_i hx
      cases hs : splitSlash xs with
      | nil => exact absurd hs (splitSlash_ne_nil xs)
      | cons y ys =>
        rw [hs] at h ih
        rcases List.mem_cons.1 h with rfl | h
        · rw [List.mem_cons, not_or]
          exact ⟨fun e => hx e.symm, ih (by simp)⟩
        · exact ih (by simp [h])

theorem splitSlash_joinSlash {l : List Str} (hne : l ≠ []) (h : ∀ c ∈ l, '/' ∉ c) :
    splitSlash (joinSlash l) = l := by
  induction l with
  | nil => exact absurd rfl hne
  | cons c cs ih =>
    cases cs with
    | nil => exact splitSlash_noSlash (h c (by simp))
    | cons d ds =>
      rw [joinSlash, splitSlash_append, splitSlash_noSlash (h c (by simp)),
        ih (by simp) (fun x hx => h x (List.mem_cons_of_mem _ hx))]
      rfl

theorem joinSlash_concat (l : List Str) (s : Str) :
    joinSlash (l ++ [s]) = if l = [] then s else joinSlash l ++ '/' :: s := by
  induction l with
  | nil => rfl
  | cons c cs ih =>
    rw [if_neg (by simp)]
    cases cs with
    | nil => rfl
    | cons d ds =>
      rw [if_neg (by simp)] at ih
      show c ++ '/' :: joinSlash (d :: ds ++ [s]) = _
      rw [ih]
      show _ = (c ++ '/' :: joinSlash (d :: ds)) ++ '/' :: s
      rw [List.append_assoc]
      rfl

/-! ## Normalisation -/

theorem normComps_append (abs : Bool) (l m : List Str) : ∀ acc,
    normComps abs acc (l ++ m) = normComps abs (normComps abs acc l).reverse m := by
  induction l with
  | nil => intro acc; simp [normComps]
  | cons c cs ih =>
    intro acc
    rw [List.cons_append, normComps_cons, normComps_cons]
    split
    · exact ih acc
    · split
      · exact ih _
      · exact ih _

/-- Components that normalisation of an absolute path keeps as they are. -/
def NormalComps (l : List Str) : Prop :=
  ∀ c ∈ l, c ≠ [] ∧ c ≠ ['.'] ∧ c ≠ ['.', '.'] ∧ '/' ∉ c

theorem normComps_normal (l : List Str) (hl : ∀ c ∈ l, '/' ∉ c) : ∀ acc, NormalComps acc →
    NormalComps (normComps true acc l) := by
  induction l with
  | nil => intro acc h c hc; exact h c (by simpa [normComps] using hc)
  | cons c cs ih =>
    intro acc h
    have hcs := ih (fun x hx => hl x (List.mem_cons_of_mem _ hx))
    unfold normComps
    split
    · exact hcs acc h
    · rename_i h1
      split
      · rename_i h2
        apply hcs
        intro x hx
        rcases List.mem_cons.1 hx with rfl | hx
        · refine ⟨fun e => h1 (Or.inl e), fun e => h1 (Or.inr e), ?_, hl x (by simp)⟩
          rcases h2 with h2 | h2 | h2
          · exact h2
          · simp at h2
          · exfalso
            cases acc with
            | nil => simp at h2
            | cons a as =>
              simp only [List.head?_cons, Option.some.injEq] at h2
              exact (h a (by simp)).2.2.1 h2
        · exact h x hx
      · apply hcs
        intro x hx
        exact h x (List.mem_of_mem_tail hx)

theorem normComps_id (l : List Str) (hl : NormalComps l) : ∀ acc,
    normComps true acc l = acc.reverse ++ l := by
  induction l with
  | nil => intro acc; simp [normComps]
  | cons c cs ih =>
    intro acc
    obtain ⟨h1, h2, h3, -⟩ := hl c (by simp)
    unfold normComps
    rw [if_neg (by tauto), if_pos (Or.inl h3), ih (fun x hx => hl x (List.mem_cons_of_mem _ hx))]
    simp

/-- Normal components of an absolute path. -/
def comps (p : Str) : List Str := normComps true [] (splitSlash p)

theorem comps_normal (p : Str) : NormalComps (comps p) :=
  normComps_normal _ (fun _ h => mem_splitSlash h) [] (by intro c hc; simp at hc)

/-- The path with the given number of leading slashes and components. -/
def canon (n : Nat) (l : List Str) : Str := List.replicate n '/' ++ joinSlash l

theorem initialSlashes_abs {p : Str} (h : p.head? = some '/') :
    initialSlashes p = 1 ∨ initialSlashes p = 2 := by
  cases p with
  | nil => simp at h
  | cons c cs =>
    simp only [List.head?_cons, Option.some.injEq] at h
    subst h
    unfold initialSlashes
    split <;> simp_all

theorem normPath_abs {p : Str} (h : p.head? = some '/') :
    normPath p = canon (initialSlashes p) (comps p) := by
  have hne : p ≠ [] := by rintro rfl; simp at h
  have hn := initialSlashes_abs h
  unfold normPath
  rw [if_neg hne]
  have hd : decide (initialSlashes p ≠ 0) = true := by rcases hn with e | e <;> rw [e] <;> rfl
  simp only [hd]
  rw [if_neg]
  · rfl
  · rcases hn with e | e <;> rw [e] <;> simp [List.replicate]

theorem joinSlash_head {l : List Str} (hl : NormalComps l) : (joinSlash l).head? ≠ some '/' := by
  cases l with
  | nil => simp [joinSlash]
  | cons c cs =>
    obtain ⟨h1, -, -, h4⟩ := hl c (by simp)
    cases c with
    | nil => exact absurd rfl h1
    | cons x xs =>
      have hx : x ≠ '/' := fun e => h4 (by simp [e])
      cases cs with
      | nil => simpa [joinSlash] using hx
      | cons d ds => simpa [joinSlash] using hx

theorem initialSlashes_canon {n : Nat} {l : List Str} (hn : n = 1 ∨ n = 2) (hl : NormalComps l) :
    initialSlashes (canon n l) = n := by
  have hh := joinSlash_head hl
  unfold canon
  obtain ⟨s, hs⟩ : ∃ s, s = joinSlash l := ⟨_, rfl⟩
  rw [← hs] at hh ⊢
  rcases hn with rfl | rfl
  · cases s with
    | nil => rfl
    | cons c cs =>
      have hc : c ≠ '/' := by simpa using hh
      exact initialSlashes_one hc cs
  · cases s with
    | nil => rfl
    | cons c cs =>
      have hc : c ≠ '/' := by simpa using hh
      exact initialSlashes_two hc cs

theorem splitSlash_replicate (n : Nat) (s : Str) :
    splitSlash (List.replicate n '/' ++ s) = List.replicate n [] ++ splitSlash s := by
  induction n with
  | zero => rfl
  | succ n ih =>
    rw [List.replicate_succ, List.cons_append, splitSlash_cons, if_pos rfl, ih, List.replicate_succ]
    rfl

theorem normComps_skip (abs : Bool) (n : Nat) (acc l : List Str) :
    normComps abs acc (List.replicate n [] ++ l) = normComps abs acc l := by
  induction n with
  | zero => rfl
  | succ n ih =>
    rw [List.replicate_succ, List.cons_append, normComps_cons, if_pos (Or.inl rfl), ih]

theorem comps_canon (n : Nat) {l : List Str} (hl : NormalComps l) : comps (canon n l) = l := by
  unfold comps canon
  rw [splitSlash_replicate, normComps_skip]
  by_cases h : l = []
  · subst h; rfl
  · rw [splitSlash_joinSlash h (fun c hc => (hl c hc).2.2.2), normComps_id l hl]
    simp

theorem canon_head {n : Nat} (hn : n = 1 ∨ n = 2) (l : List Str) : (canon n l).head? = some '/' := by
  rcases hn with rfl | rfl <;> rfl

/-- Normalising twice is normalising once. -/
theorem normPath_idem {p : Str} (h : p.head? = some '/') : normPath (normPath p) = normPath p := by
  have hn := initialSlashes_abs h
  rw [normPath_abs h, normPath_abs (canon_head hn _), initialSlashes_canon hn (comps_normal p),
    comps_canon _ (comps_normal p)]

/-! ## A component at the end of a path -/

/-- An ordinary file or directory name. -/
def Ordinary (s : Str) : Prop := s ≠ [] ∧ s ≠ ['.'] ∧ s ≠ ['.', '.'] ∧ '/' ∉ s

theorem getLast?_append_singleton (a : Str) : (a ++ ['/']).getLast? = some '/' := by simp

theorem ends_slash {a : Str} (h : a.getLast? = some '/') : ∃ a', a = a' ++ ['/'] := by
  obtain ⟨a', ha⟩ := List.getLast?_eq_some_iff.1 h
  exact ⟨a', ha⟩

theorem comps_join {x b : Str} (hx : x.head? = some '/') (hb : Ordinary b) :
    comps (pathJoin x b) = comps x ++ [b] ∧ initialSlashes (pathJoin x b) = initialSlashes x ∧
      (pathJoin x b).head? = some '/' := by
  obtain ⟨b1, b2, b3, b4⟩ := hb
  have hbh : b.head? ≠ some '/' := by
    cases b with
    | nil => simp
    | cons c cs =>
      simp only [List.head?_cons, ne_eq, Option.some.injEq]
      intro e; exact b4 (by simp [e])
  have hxne : x ≠ [] := by rintro rfl; simp at hx
  have hnorm : NormalComps [b] := by intro c hc; simp at hc; subst hc; exact ⟨b1, b2, b3, b4⟩
  unfold pathJoin
  rw [if_neg hbh]
  by_cases hl : x.getLast? = some '/'
  · rw [if_pos (Or.inr hl)]
    obtain ⟨x', rfl⟩ := ends_slash hl
    refine ⟨?_, ?_, ?_⟩
    · unfold comps
      rw [List.append_assoc]
      show normComps true [] (splitSlash (x' ++ '/' :: b)) = normComps true [] (splitSlash (x' ++ '/' :: [])) ++ [b]
      rw [splitSlash_append, splitSlash_append, normComps_append, normComps_append,
        splitSlash_noSlash b4, normComps_id [b] hnorm]
      simp [splitSlash, normComps]
    · -- the first three characters decide
      cases x' with
      | nil =>
        cases b with
        | nil => exact absurd rfl b1
        | cons c cs =>
          have hc : c ≠ '/' := by simpa using hbh
          exact initialSlashes_one hc cs
      | cons c1 r1 =>
        have hc1 : c1 = '/' := by simpa using hx
        subst hc1
        cases r1 with
        | nil =>
          cases b with
          | nil => exact absurd rfl b1
          | cons c cs =>
            have hc : c ≠ '/' := by simpa using hbh
            exact initialSlashes_two hc cs
        | cons c2 r2 =>
          by_cases h2 : c2 = '/'
          · subst h2
            cases r2 with
            | nil => rfl
            | cons c3 r3 =>
              by_cases h3 : c3 = '/'
              · subst h3; rfl
              · show initialSlashes ('/' :: '/' :: c3 :: (r3 ++ ['/'] ++ b)) =
                  initialSlashes ('/' :: '/' :: c3 :: (r3 ++ ['/']))
                rw [initialSlashes_two h3, initialSlashes_two h3]
          · show initialSlashes ('/' :: c2 :: (r2 ++ ['/'] ++ b)) =
                initialSlashes ('/' :: c2 :: (r2 ++ ['/']))
            rw [initialSlashes_one h2, initialSlashes_one h2]
    · rw [List.head?_append, hx]; rfl
  · rw [if_neg (by tauto)]
    refine ⟨?_, ?_, ?_⟩
    · unfold comps
      rw [splitSlash_append, normComps_append, splitSlash_noSlash b4, normComps_id [b] hnorm]
      simp
    · cases x with
      | nil => exact absurd rfl hxne
      | cons c1 r1 =>
        have hc1 : c1 = '/' := by simpa using hx
        subst hc1
        cases r1 with
        | nil => exact absurd rfl hl
        | cons c2 r2 =>
          by_cases h2 : c2 = '/'
          · subst h2
            cases r2 with
            | nil => exact absurd rfl hl
            | cons c3 r3 =>
              by_cases h3 : c3 = '/'
              · subst h3; rfl
              · show initialSlashes ('/' :: '/' :: c3 :: (r3 ++ '/' :: b)) =
                  initialSlashes ('/' :: '/' :: c3 :: r3)
                rw [initialSlashes_two h3, initialSlashes_two h3]
          · show initialSlashes ('/' :: c2 :: (r2 ++ '/' :: b)) =
                initialSlashes ('/' :: c2 :: r2)
            rw [initialSlashes_one h2, initialSlashes_one h2]
    · rw [List.head?_append, hx]; rfl


/-- `pre` is empty or ends with a slash. -/
def Dir (pre : Str) : Prop := pre = [] ∨ pre.getLast? = some '/'

/-- The last component of the path is `s` (possibly followed by slashes). -/
def EndsIn (q s : Str) : Prop := ∃ pre k, Dir pre ∧ q = pre ++ s ++ List.replicate k '/'

theorem rstripSlash_append {x s : Str} (hs : s ≠ []) (h : '/' ∉ s) : rstripSlash (x ++ s) = x ++ s := by
  unfold rstripSlash
  rw [List.reverse_append]
  obtain ⟨a, b, hab⟩ : ∃ a b, s.reverse = a :: b := by
    cases hr : s.reverse with
    | nil => rw [List.reverse_eq_nil_iff] at hr; exact absurd hr hs
    | cons a b => exact ⟨a, b, rfl⟩
  have ha : a ≠ '/' := by
    rintro rfl
    exact h (List.mem_reverse.1 (hab ▸ List.mem_cons_self))
  rw [hab, List.cons_append, List.dropWhile_cons_of_neg (by simpa using ha), ← List.cons_append, ← hab,
    List.reverse_append, List.reverse_reverse, List.reverse_reverse]

theorem rstripSlash_slash (x : Str) : rstripSlash (x ++ ['/']) = rstripSlash x := by
  unfold rstripSlash
  rw [List.reverse_append]
  rfl

theorem rstripSlash_replicate (x : Str) (k : Nat) :
    rstripSlash (x ++ List.replicate k '/') = rstripSlash x := by
  induction k with
  | zero => simp
  | succ k ih => rw [List.replicate_succ', ← List.append_assoc, rstripSlash_slash, ih]

theorem baseName_append {pre s : Str} (hp : Dir pre) (h : '/' ∉ s) : baseName (pre ++ s) = s := by
  unfold baseName
  rw [List.reverse_append, List.takeWhile_append_of_pos (by
    intro c hc
    have := List.mem_reverse.1 hc
    simp only [bne_iff_ne, ne_eq]
    rintro rfl
    exact h this)]
  rcases hp with rfl | hp
  · simp
  · obtain ⟨p', rfl⟩ := ends_slash hp
    simp

theorem endsIn_unique {q s s' : Str} (h1 : s ≠ []) (h2 : '/' ∉ s) (h1' : s' ≠ []) (h2' : '/' ∉ s')
    (h : EndsIn q s) (h' : EndsIn q s') : s = s' := by
  have key : ∀ {s : Str}, s ≠ [] → '/' ∉ s → EndsIn q s → baseName (rstripSlash q) = s := by
    rintro s a b ⟨pre, k, hp, rfl⟩
    rw [rstripSlash_replicate, rstripSlash_append a b, baseName_append hp b]
  rw [← key h1 h2 h, ← key h1' h2' h']

theorem ordinary_head {b : Str} (hb : Ordinary b) : b.head? ≠ some '/' := by
  cases b with
  | nil => simp
  | cons c cs =>
    simp only [List.head?_cons, ne_eq, Option.some.injEq]
    intro e; exact hb.2.2.2 (by simp [e])

theorem endsIn_join {base s : Str} (hs : Ordinary s) : EndsIn (pathJoin base s ++ ['/']) s := by
  unfold pathJoin
  rw [if_neg (ordinary_head hs)]
  split
  · rename_i h
    exact ⟨base, 1, h, rfl⟩
  · refine ⟨base ++ ['/'], 1, Or.inr (by simp), by simp⟩

theorem endsIn_slash {q s : Str} (h : EndsIn q s) : EndsIn (q ++ ['/']) s := by
  obtain ⟨pre, k, hp, rfl⟩ := h
  exact ⟨pre, k + 1, hp, by rw [List.append_assoc, List.replicate_succ']⟩

/-! ## Absolute paths -/

/-- The path before normalisation. -/
def preAbs (cwd : Str) (userHome : Str → Option Str) (x : Str) : Str :=
  if (expandUser userHome x).head? = some '/' then expandUser userHome x
  else pathJoin cwd (expandUser userHome x)

theorem absPath_eq (cwd : Str) (userHome : Str → Option Str) (x : Str) :
    absPath cwd (expandUser userHome x) = normPath (preAbs cwd userHome x) := rfl

theorem pathJoin_head {cwd x : Str} (hc : cwd.head? = some '/') : (pathJoin cwd x).head? = some '/' := by
  have hne : cwd ≠ [] := by rintro rfl; simp at hc
  unfold pathJoin
  split
  · assumption
  · split <;> rw [List.head?_append, hc] <;> rfl

theorem preAbs_head {cwd : Str} (hc : cwd.head? = some '/') (userHome : Str → Option Str) (x : Str) :
    (preAbs cwd userHome x).head? = some '/' := by
  unfold preAbs
  split
  · assumption
  · exact pathJoin_head hc

theorem abs_canon {cwd : Str} (hc : cwd.head? = some '/') (userHome : Str → Option Str) (x : Str) :
    absPath cwd (expandUser userHome x) =
      canon (initialSlashes (preAbs cwd userHome x)) (comps (preAbs cwd userHome x)) := by
  rw [absPath_eq, normPath_abs (preAbs_head hc userHome x)]

theorem abs_head {cwd : Str} (hc : cwd.head? = some '/') (userHome : Str → Option Str) (x : Str) :
    (absPath cwd (expandUser userHome x)).head? = some '/' := by
  rw [abs_canon hc]
  exact canon_head (initialSlashes_abs (preAbs_head hc userHome x)) _

theorem preAbs_of_abs (cwd : Str) (userHome : Str → Option Str) {x : Str} (hx : x.head? = some '/') :
    preAbs cwd userHome x = x := by
  have : expandUser userHome x = x := by
    cases x with
    | nil => rfl
    | cons c cs =>
      have hcc : c = '/' := by simpa using hx
      subst hcc
      rfl
  unfold preAbs
  rw [this, if_pos hx]

/-- Making a path absolute twice is making it absolute once. -/
theorem abs_idem {cwd : Str} (hc : cwd.head? = some '/') (userHome : Str → Option Str) (x : Str) :
    absPath cwd (expandUser userHome (absPath cwd (expandUser userHome x))) =
      absPath cwd (expandUser userHome x) := by
  rw [absPath_eq, preAbs_of_abs cwd userHome (abs_head hc userHome x), absPath_eq,
    normPath_idem (preAbs_head hc userHome x)]

theorem pathJoin_ordinary {x b : Str} (hb : Ordinary b) :
    pathJoin x b = if x = [] ∨ x.getLast? = some '/' then x ++ b else x ++ '/' :: b := by
  unfold pathJoin
  rw [if_neg (ordinary_head hb)]

theorem expandUser_ne_nil (userHome : Str → Option Str) {x : Str} (hx : x ≠ []) :
    expandUser userHome x ≠ [] := by
  unfold expandUser
  split
  · simp only []
    split
    · exact hx
    · split
      · simp
      · assumption
  · exact hx

theorem getLast?_append_ne (x : Str) {y : Str} (h : y ≠ []) : (x ++ y).getLast? = y.getLast? := by
  rw [List.getLast?_append]
  cases hy : y.getLast? with
  | none => exact absurd (List.getLast?_eq_none_iff.1 hy) h
  | some a => rfl

theorem dropWhile_ne_last {rest : Str} (h : '/' ∈ rest) :
    (rest.dropWhile (fun c => c != '/')).getLast? = rest.getLast? ∧
      rest.dropWhile (fun c => c != '/') ≠ [] := by
  induction rest with
  | nil => simp at h
  | cons c cs ih =>
    by_cases hc : c = '/'
    · subst hc
      rw [List.dropWhile_cons_of_neg (by simp)]
      exact ⟨rfl, by simp⟩
    · rw [List.dropWhile_cons_of_pos (by simpa using hc)]
      have hm : '/' ∈ cs := by
        rcases List.mem_cons.1 h with e | e
        · exact absurd e.symm hc
        · exact e
      obtain ⟨h1, h2⟩ := ih hm
      refine ⟨?_, h2⟩
      have : cs ≠ [] := by rintro rfl; simp at hm
      rw [h1]
      cases cs with
      | nil => exact absurd rfl this
      | cons d ds => rw [List.getLast?_cons_cons]

theorem dropWhile_append_mem {rest y : Str} (h : '/' ∈ rest) :
    (rest ++ y).dropWhile (fun c => c != '/') = rest.dropWhile (fun c => c != '/') ++ y ∧
    (rest ++ y).takeWhile (fun c => c != '/') = rest.takeWhile (fun c => c != '/') := by
  induction rest with
  | nil => simp at h
  | cons c cs ih =>
    by_cases hc : c = '/'
    · subst hc
      simp
    · have hm : '/' ∈ cs := by
        rcases List.mem_cons.1 h with e | e
        · exact absurd e.symm hc
        · exact e
      obtain ⟨h1, h2⟩ := ih hm
      rw [List.cons_append, List.dropWhile_cons_of_pos (by simpa using hc),
        List.dropWhile_cons_of_pos (by simpa using hc), List.takeWhile_cons_of_pos (by simpa using hc),
        List.takeWhile_cons_of_pos (by simpa using hc), h1, h2]
      exact ⟨rfl, rfl⟩

theorem takeWhile_all {rest : Str} (h : '/' ∉ rest) (y : Str) :
    (rest ++ '/' :: y).dropWhile (fun c => c != '/') = '/' :: y ∧
    (rest ++ '/' :: y).takeWhile (fun c => c != '/') = rest ∧
    rest.dropWhile (fun c => c != '/') = [] ∧ rest.takeWhile (fun c => c != '/') = rest := by
  induction rest with
  | nil => simp
  | cons c cs ih =>
    rw [List.mem_cons, not_or] at h
    have hc : c ≠ '/' := fun e => h.1 e.symm
    obtain ⟨h1, h2, h3, h4⟩ := ih h.2
    rw [List.cons_append, List.dropWhile_cons_of_pos (by simpa using hc),
      List.takeWhile_cons_of_pos (by simpa using hc), List.dropWhile_cons_of_pos (by simpa using hc),
      List.takeWhile_cons_of_pos (by simpa using hc), h1, h2, h3, h4]
    exact ⟨rfl, rfl, rfl, rfl⟩

theorem rstripSlash_last (h : Str) : (rstripSlash h).getLast? ≠ some '/' := by
  unfold rstripSlash
  rw [List.getLast?_reverse]
  cases hd : h.reverse.dropWhile (fun c => c == '/') with
  | nil => simp
  | cons a b =>
    simp only [List.head?_cons, ne_eq, Option.some.injEq]
    rintro rfl
    have hne : h.reverse.dropWhile (fun c => c == '/') ≠ [] := by rw [hd]; simp
    have := List.head_dropWhile_not (fun c => c == '/') hne
    simp only [hd, List.head_cons] at this
    simp at this

/-- Expanding the home directory commutes with appending a file name. -/
theorem expandUser_join (userHome : Str → Option Str) {x b : Str} (hx : x ≠ []) (hb : Ordinary b) :
    expandUser userHome (pathJoin x b) = pathJoin (expandUser userHome x) b := by
  rw [pathJoin_ordinary hb, pathJoin_ordinary hb]
  cases x with
  | nil => exact absurd rfl hx
  | cons c rest =>
    by_cases hc : c = '~'
    · subst hc
      by_cases hm : '/' ∈ rest
      · obtain ⟨l1, l2⟩ := dropWhile_ne_last hm
        have hrne : rest ≠ [] := by rintro rfl; simp at hm
        have hlast : ('~' :: rest).getLast? = rest.getLast? := by
          cases rest with
          | nil => exact absurd rfl hrne
          | cons d ds => rw [List.getLast?_cons_cons]
        have hexp : ∀ y : Str, expandUser userHome ('~' :: (rest ++ y)) =
            match userHome ('~' :: rest.takeWhile (fun c => c != '/')) with
            | none => '~' :: (rest ++ y)
            | some home => rstripSlash home ++ rest.dropWhile (fun c => c != '/') ++ y := by
          intro y
          unfold expandUser
          simp only []
          obtain ⟨d1, d2⟩ := dropWhile_append_mem (y := y) hm
          rw [d1, d2]
          cases userHome ('~' :: rest.takeWhile (fun c => c != '/')) with
          | none => rfl
          | some home =>
            simp only []
            rw [if_neg (by simp [l2]), List.append_assoc]
        have hx0 := hexp []
        rw [List.append_nil] at hx0
        have hif : (if '~' :: rest = [] ∨ ('~' :: rest).getLast? = some '/' then '~' :: rest ++ b
            else '~' :: rest ++ '/' :: b) = '~' :: (rest ++ (if rest.getLast? = some '/' then b else '/' :: b)) := by
          rw [hlast]
          by_cases h : rest.getLast? = some '/'
          · rw [if_pos (Or.inr h), if_pos h]; rfl
          · rw [if_neg (by simp [h]), if_neg h]; rfl
        rw [hif, hexp, hx0]
        cases userHome ('~' :: rest.takeWhile (fun c => c != '/')) with
        | none =>
          simp only []
          rw [hif]
        | some home =>
          simp only [List.append_nil]
          have hl : (rstripSlash home ++ rest.dropWhile (fun c => c != '/')).getLast? = rest.getLast? := by
            rw [getLast?_append_ne _ l2, l1]
          rw [hl]
          by_cases h : rest.getLast? = some '/'
          · rw [if_pos h, if_pos (Or.inr h)]
          · rw [if_neg h, if_neg (by simp [l2, h])]
      · have hlast : ('~' :: rest).getLast? ≠ some '/' := by
          intro h
          have := List.mem_of_getLast? h
          rcases List.mem_cons.1 this with e | e
          · simp at e
          · exact hm e
        rw [if_neg (by simp [hlast])]
        obtain ⟨d1, d2, d3, d4⟩ := takeWhile_all hm b
        show expandUser userHome ('~' :: (rest ++ '/' :: b)) = _
        unfold expandUser
        simp only []
        rw [d1, d2, d3, d4]
        cases userHome ('~' :: rest) with
        | none =>
          simp only []
          rw [if_neg (by simp [hlast])]
          rfl
        | some home =>
          simp only [List.append_nil]
          rw [if_neg (by simp)]
          by_cases hr : rstripSlash home = []
          · rw [if_pos hr, hr]
            simp
          · rw [if_neg hr, if_neg (by simp [hr, rstripSlash_last])]
    · have he : ∀ y : Str, expandUser userHome (c :: y) = c :: y := by
        intro y
        unfold expandUser
        split
        · rename_i h
          simp only [List.cons.injEq] at h
          exact absurd h.1 hc
        · rfl
      rw [he rest]
      by_cases h : (c :: rest).getLast? = some '/'
      · rw [if_pos (Or.inr h), List.cons_append, he]
      · rw [if_neg (by simp [h]), List.cons_append, he]

theorem pathJoin_assoc {a x b : Str} (hx : x ≠ []) (hx' : x.head? ≠ some '/') (hb : Ordinary b) :
    pathJoin a (pathJoin x b) = pathJoin (pathJoin a x) b := by
  rw [pathJoin_ordinary hb, pathJoin_ordinary hb]
  have hxj : ∀ y : Str, (x ++ y).head? ≠ some '/' := by
    intro y
    cases x with
    | nil => exact absurd rfl hx
    | cons c cs => exact hx'
  have hj : ∀ y : Str, pathJoin a (x ++ y) = pathJoin a x ++ y := by
    intro y
    unfold pathJoin
    rw [if_neg (hxj y), if_neg hx']
    split
    · rw [List.append_assoc]
    · rw [List.append_assoc]; rfl
  have hne : pathJoin a x ≠ [] := by
    unfold pathJoin
    rw [if_neg hx']
    split <;> simp [hx]
  have hl : (pathJoin a x).getLast? = x.getLast? := by
    unfold pathJoin
    rw [if_neg hx']
    split
    · exact getLast?_append_ne _ hx
    · rw [getLast?_append_ne _ (by simp)]
      cases x with
      | nil => exact absurd rfl hx
      | cons c cs => rw [List.getLast?_cons_cons]
  rw [hl]
  by_cases h : x.getLast? = some '/'
  · rw [if_pos (Or.inr h), if_pos (Or.inr h), hj]
  · rw [if_neg (by simp [hx, h]), if_neg (by simp [hne, h]), hj]

theorem preAbs_join (cwd : Str) (userHome : Str → Option Str) {x b : Str} (hx : x ≠ [])
    (hb : Ordinary b) : preAbs cwd userHome (pathJoin x b) = pathJoin (preAbs cwd userHome x) b := by
  have hne := expandUser_ne_nil userHome hx
  unfold preAbs
  rw [expandUser_join userHome hx hb]
  have hh : (pathJoin (expandUser userHome x) b).head? = (expandUser userHome x).head? := by
    rw [pathJoin_ordinary hb]
    cases he : expandUser userHome x with
    | nil => exact absurd he hne
    | cons c cs => split <;> rfl
  rw [hh]
  by_cases h : (expandUser userHome x).head? = some '/'
  · rw [if_pos h, if_pos h]
  · rw [if_neg h, if_neg h, pathJoin_assoc hne h hb]

/-- Appending a file name before or after making the directory absolute is the same. -/
theorem abs_join {cwd : Str} (hc : cwd.head? = some '/') (userHome : Str → Option Str) {x b : Str}
    (hx : x ≠ []) (hb : Ordinary b) :
    absPath cwd (expandUser userHome (pathJoin (absPath cwd (expandUser userHome x)) b)) =
      absPath cwd (expandUser userHome (pathJoin x b)) := by
  have h1 := preAbs_head hc userHome x
  have hn := initialSlashes_abs h1
  have hax := abs_head hc userHome x
  have hane : absPath cwd (expandUser userHome x) ≠ [] := by
    intro e; rw [e] at hax; simp at hax
  rw [absPath_eq, absPath_eq cwd userHome (pathJoin x b), preAbs_join cwd userHome hane hb,
    preAbs_join cwd userHome hx hb, preAbs_of_abs cwd userHome hax]
  obtain ⟨a1, a2, a3⟩ := comps_join hax hb
  obtain ⟨b1, b2, b3⟩ := comps_join h1 hb
  rw [normPath_abs a3, normPath_abs b3, a1, a2, b1, b2, abs_canon hc,
    initialSlashes_canon hn (comps_normal _), comps_canon _ (comps_normal _)]

theorem canon_endsIn (n : Nat) (l : List Str) (s : Str) : ∃ pre, Dir pre ∧ canon n (l ++ [s]) = pre ++ s := by
  unfold canon
  rw [joinSlash_concat]
  by_cases h : l = []
  · rw [if_pos h]
    refine ⟨List.replicate n '/', ?_, rfl⟩
    cases n with
    | zero => exact Or.inl rfl
    | succ n => right; rw [List.getLast?_replicate]; simp
  · rw [if_neg h]
    refine ⟨List.replicate n '/' ++ joinSlash l ++ ['/'], Or.inr (by simp), by simp⟩

theorem abs_join_base {cwd : Str} (hc : cwd.head? = some '/') (userHome : Str → Option Str) {x b : Str}
    (hx : x ≠ []) (hb : Ordinary b) :
    baseName (absPath cwd (expandUser userHome (pathJoin x b))) = b := by
  rw [absPath_eq, preAbs_join cwd userHome hx hb]
  obtain ⟨b1, b2, b3⟩ := comps_join (preAbs_head hc userHome x) hb
  rw [normPath_abs b3, b1, b2]
  obtain ⟨pre, hp, e⟩ := canon_endsIn (initialSlashes (preAbs cwd userHome x)) (comps (preAbs cwd userHome x)) b
  rw [e, baseName_append hp hb.2.2.2]

theorem comps_slash (q : Str) : comps (q ++ ['/']) = comps q := by
  unfold comps
  show normComps true [] (splitSlash (q ++ '/' :: [])) = _
  rw [splitSlash_append, normComps_append]
  simp [splitSlash, normComps]

theorem comps_replicate (q : Str) (k : Nat) : comps (q ++ List.replicate k '/') = comps q := by
  induction k with
  | zero => simp
  | succ k ih => rw [List.replicate_succ', ← List.append_assoc, comps_slash, ih]

theorem comps_endsIn {q s : Str} (hq : q.head? = some '/') (hs : Ordinary s) (h : EndsIn q s) :
    ∃ l, comps q = l ++ [s] := by
  have hnorm : NormalComps [s] := by intro c hc; simp at hc; subst hc; exact hs
  obtain ⟨pre, k, hp, h⟩ := h
  have hpre : ∃ p', pre = p' ++ ['/'] := by
    rcases hp with rfl | hp
    · exfalso
      have : s.head? = some '/' := by
        subst h
        rw [List.nil_append, List.head?_append] at hq
        cases s with
        | nil => exact absurd rfl hs.1
        | cons c cs => simpa using hq
      exact ordinary_head hs this
    · exact ends_slash hp
  obtain ⟨p', rfl⟩ := hpre
  refine ⟨comps p', ?_⟩
  have : comps (p' ++ ['/'] ++ s) = comps p' ++ [s] := by
    unfold comps
    rw [List.append_assoc]
    show normComps true [] (splitSlash (p' ++ '/' :: s)) = _
    rw [splitSlash_append, normComps_append, splitSlash_noSlash hs.2.2.2, normComps_id [s] hnorm]
    simp
  subst h
  rw [comps_replicate, this]

theorem expandUser_endsIn (userHome : Str → Option Str) {q s : Str} (hs : Ordinary s)
    (ht : s.head? ≠ some '~') (h : EndsIn q s) : EndsIn (expandUser userHome q) s := by
  unfold expandUser
  split
  · rename_i rest
    simp only []
    split
    · exact h
    · rename_i home _
      obtain ⟨pre, k, hp, h⟩ := h
      have hpre : ∃ p', pre = p' ++ ['/'] := by
        rcases hp with rfl | hp
        · exfalso
          apply ht
          cases s with
          | nil => exact absurd rfl hs.1
          | cons c cs =>
            simp only [List.nil_append, List.cons_append, List.cons.injEq] at h; rw [← h.1]; rfl
        · exact ends_slash hp
      obtain ⟨p', rfl⟩ := hpre
      -- the home prefix lies within `p'`
      obtain ⟨r, hr, hrm⟩ : ∃ r, p' ++ ['/'] = '~' :: r ∧ '/' ∈ r := by
        cases p' with
        | nil => simp at h
        | cons c cs =>
          refine ⟨cs ++ ['/'], ?_, by simp⟩
          have : c = '~' := by
            simp only [List.cons_append, List.cons.injEq] at h
            exact h.1.symm
          rw [this]; rfl
      obtain ⟨l1, l2⟩ := dropWhile_ne_last hrm
      have hlr : r.getLast? = some '/' := by
        have : ('~' :: r).getLast? = some '/' := by rw [← hr]; simp
        cases r with
        | nil => simp at hrm
        | cons d ds => rwa [List.getLast?_cons_cons] at this
      have hrest : rest = r ++ (s ++ List.replicate k '/') := by
        rw [hr] at h
        simpa using h
      subst hrest
      rw [(dropWhile_append_mem (y := s ++ List.replicate k '/') hrm).1, if_neg (by simp [l2])]
      refine ⟨rstripSlash home ++ r.dropWhile (fun c => c != '/'), k, Or.inr ?_, by simp⟩
      rw [getLast?_append_ne _ l2, l1, hlr]
  · exact h

/-- Making a path absolute keeps its last component. -/
theorem abs_endsIn {cwd : Str} (hc : cwd.head? = some '/') (userHome : Str → Option Str) {q s : Str}
    (hs : Ordinary s) (ht : s.head? ≠ some '~') (h : EndsIn q s) :
    ∃ pre, Dir pre ∧ absPath cwd (expandUser userHome q) = pre ++ s := by
  have he : EndsIn (preAbs cwd userHome q) s := by
    have h1 := expandUser_endsIn userHome hs ht h
    unfold preAbs
    split
    · exact h1
    · rename_i hh
      obtain ⟨pre, k, hp, h1⟩ := h1
      unfold pathJoin
      rw [if_neg hh]
      split
      · rename_i hcw
        rcases hp with rfl | hp
        · exact ⟨cwd, k, hcw, by rw [h1]; simp⟩
        · refine ⟨cwd ++ pre, k, Or.inr ?_, by rw [h1]; simp⟩
          obtain ⟨p', rfl⟩ := ends_slash hp; simp
      · refine ⟨cwd ++ '/' :: pre, k, Or.inr ?_, by rw [h1]; simp⟩
        rcases hp with rfl | hp
        · simp
        · obtain ⟨p', rfl⟩ := ends_slash hp
          rw [getLast?_append_ne cwd (by simp), ← List.cons_append, List.getLast?_append]; rfl
  obtain ⟨l, hl⟩ := comps_endsIn (preAbs_head hc userHome q) hs he
  rw [abs_canon hc, hl]
  exact canon_endsIn _ _ _

/-- A slash at the end of an absolute, normal path with an ordinary last component disappears. -/
theorem abs_slash {cwd : Str} (hc : cwd.head? = some '/') (userHome : Str → Option Str) {x : Str}
    {l : List Str} (hl : comps (preAbs cwd userHome x) = l) (hne : l ≠ []) :
    absPath cwd (expandUser userHome (absPath cwd (expandUser userHome x) ++ ['/'])) =
      absPath cwd (expandUser userHome x) := by
  have hh := preAbs_head hc userHome x
  have hn := initialSlashes_abs hh
  have hlN : NormalComps l := hl ▸ comps_normal _
  have e := abs_canon hc userHome x
  rw [hl] at e
  obtain ⟨a, ha⟩ : ∃ a, a = absPath cwd (expandUser userHome x) := ⟨_, rfl⟩
  rw [← ha] at e ⊢
  have hah : a.head? = some '/' := by rw [ha]; exact abs_head hc userHome x
  have hah' : (a ++ ['/']).head? = some '/' := by rw [List.head?_append, hah]; rfl
  rw [absPath_eq, preAbs_of_abs cwd userHome hah', normPath_abs hah', comps_slash]
  have h1 : comps a = l := by rw [e]; exact comps_canon _ hlN
  have h2 : initialSlashes (a ++ ['/']) = initialSlashes (preAbs cwd userHome x) := by
    rw [e]
    have hjne : ∃ c cs, joinSlash l = c :: cs ∧ c ≠ '/' := by
      have hj := joinSlash_head hlN
      cases hjl : joinSlash l with
      | nil =>
        exfalso
        cases l with
        | nil => exact hne rfl
        | cons c cs =>
          cases cs with
          | nil => exact (hlN c (by simp)).1 hjl
          | cons d ds => simp [joinSlash] at hjl
      | cons c cs =>
        rw [hjl] at hj
        exact ⟨c, cs, rfl, by simpa using hj⟩
    obtain ⟨c, cs, hj, hcne⟩ := hjne
    unfold canon
    rw [hj]
    rcases hn with h | h <;> rw [h]
    · exact initialSlashes_one hcne _
    · exact initialSlashes_two hcne _
  rw [h1, h2, ← e]

theorem expandUser_append (userHome : Str → Option Str) {x : Str} (hx : '/' ∈ x) (y : Str) :
    expandUser userHome (x ++ y) = expandUser userHome x ++ y := by
  cases x with
  | nil => simp at hx
  | cons c rest =>
    by_cases hc : c = '~'
    · subst hc
      have hm : '/' ∈ rest := by
        rcases List.mem_cons.1 hx with e | e
        · simp at e
        · exact e
      obtain ⟨d1, d2⟩ := dropWhile_append_mem (y := y) hm
      obtain ⟨-, l2⟩ := dropWhile_ne_last hm
      show expandUser userHome ('~' :: (rest ++ y)) = _
      unfold expandUser
      simp only []
      rw [d1, d2]
      cases userHome ('~' :: rest.takeWhile (fun c => c != '/')) with
      | none => rfl
      | some home =>
        simp only []
        rw [if_neg (by simp [l2]), if_neg (by simp [l2]), List.append_assoc]
    · have he : ∀ y : Str, expandUser userHome (c :: y) = c :: y := by
        intro y
        unfold expandUser
        split
        · rename_i h
          simp only [List.cons.injEq] at h
          exact absurd h.1 hc
        · rfl
      rw [List.cons_append, he, he, List.cons_append]

theorem preAbs_append (cwd : Str) (userHome : Str → Option Str) {x : Str} (hx : '/' ∈ x) (y : Str) :
    preAbs cwd userHome (x ++ y) = preAbs cwd userHome x ++ y := by
  have hne := expandUser_ne_nil userHome (x := x) (by rintro rfl; simp at hx)
  unfold preAbs
  rw [expandUser_append userHome hx]
  have hh : (expandUser userHome x ++ y).head? = (expandUser userHome x).head? := by
    cases he : expandUser userHome x with
    | nil => exact absurd he hne
    | cons c cs => rfl
  rw [hh]
  by_cases h : (expandUser userHome x).head? = some '/'
  · rw [if_pos h, if_pos h]
  · rw [if_neg h, if_neg h]
    unfold pathJoin
    rw [if_neg h, if_neg (by rw [hh]; exact h)]
    split
    · rw [List.append_assoc]
    · rw [List.append_assoc]; rfl

theorem initialSlashes_append {p : Str} (h : ∃ c ∈ p, c ≠ '/') (y : Str) :
    initialSlashes (p ++ y) = initialSlashes p := by
  have key : ∀ (k : Nat) (c : Char) (r : Str), c ≠ '/' →
      initialSlashes (List.replicate k '/' ++ c :: r) = if k = 0 then 0 else if k = 2 then 2 else 1 := by
    intro k c r hc
    match k with
    | 0 =>
      show initialSlashes (c :: r) = 0
      unfold initialSlashes
      split <;> simp_all
    | 1 => exact initialSlashes_one hc _
    | 2 => exact initialSlashes_two hc _
    | k + 3 => rfl
  obtain ⟨k, c, r, hc, e⟩ : ∃ k c r, c ≠ '/' ∧ p = List.replicate k '/' ++ c :: r := by
    clear key
    induction p with
    | nil => simp at h
    | cons a p ih =>
      by_cases ha : a = '/'
      · subst ha
        obtain ⟨c, hcm, hc⟩ := h
        have : c ∈ p := by
          rcases List.mem_cons.1 hcm with e | e
          · exact absurd e hc
          · exact e
        obtain ⟨k, c, r, hc, e⟩ := ih ⟨c, this, hc⟩
        exact ⟨k + 1, c, r, hc, by rw [e, List.replicate_succ]; rfl⟩
      · exact ⟨0, a, p, ha, rfl⟩
  rw [e, List.append_assoc, List.cons_append, key k c _ hc, key k c _ hc]

/-- An extra slash at the end of a directory does not change the absolute path. -/
theorem abs_slash' {cwd : Str} (hc : cwd.head? = some '/') (userHome : Str → Option Str) {x s : Str}
    (hs : Ordinary s) (ht : s.head? ≠ some '~') (hx : EndsIn x s) (hsl : '/' ∈ x) (y : Str) :
    absPath cwd (expandUser userHome (x ++ '/' :: y)) =
      canon (initialSlashes (preAbs cwd userHome x))
        (normComps true [] (splitSlash (preAbs cwd userHome x) ++ splitSlash y)) := by
  have hh := preAbs_head hc userHome x
  rw [absPath_eq, preAbs_append cwd userHome hsl]
  have hh' : (preAbs cwd userHome x ++ '/' :: y).head? = some '/' := by
    rw [List.head?_append, hh]; rfl
  have hmem : ∃ c ∈ preAbs cwd userHome x, c ≠ '/' := by
    obtain ⟨pre, hp, e⟩ := abs_endsIn hc userHome hs ht hx
    rw [abs_canon hc] at e
    refine Classical.byContradiction (fun hall => ?_)
    have hrep : ∃ k, preAbs cwd userHome x = List.replicate k '/' := by
      refine ⟨(preAbs cwd userHome x).length, List.eq_replicate_of_mem ?_⟩
      intro b hb
      refine Classical.byContradiction (fun hbn => ?_)
      exact hall ⟨b, hb, hbn⟩
    obtain ⟨k, hk⟩ := hrep
    have hcomps : comps (preAbs cwd userHome x) = [] := by
      have := comps_replicate [] k
      rw [List.nil_append, ← hk] at this
      rw [this]; rfl
    rw [hcomps] at e
    have : s.head? = some '/' := by
      have hall' : ∀ c ∈ s, c = '/' := by
        intro c hcm
        have : c ∈ canon (initialSlashes (preAbs cwd userHome x)) [] := by
          rw [e]; exact List.mem_append_right _ hcm
        unfold canon joinSlash at this
        rw [List.append_nil] at this
        exact List.eq_of_mem_replicate this
      cases s with
      | nil => exact absurd rfl hs.1
      | cons c cs => rw [List.head?_cons, hall' c (by simp)]
    exact ordinary_head hs this
  rw [normPath_abs hh', initialSlashes_append hmem]
  unfold comps
  rw [splitSlash_append]

end MoonPIES
