import Verif.Props.PyText
import Verif.Lemmas.Main

/-!
# C171: a configuration file whose brackets do not match is refused
-/

namespace MoonPIES

namespace Spec

/-- Where a reader of a text stands. -/
inductive Place where
  | code
  | comment
  /-- inside a string with this quote -/
  | quoted (q : Char)
  /-- inside a string with this quote, after a backslash -/
  | escaped (q : Char)

/-- Where it stands after a character. -/
def Place.after : Place → Char → Place
  | .code, c => if c = '#' then .comment else if c = '\'' ∨ c = '"' then .quoted c else .code
  | .comment, c => if c = '\n' then .code else .comment
  | .quoted q, c => if c = q then .code else if c = '\\' then .escaped q else .quoted q
  | .escaped q, _ => .quoted q

/-- The brackets of a text outside strings and comments. -/
def bracketsFrom : Place → Str → Str
  | _, [] => []
  | .code, c :: cs =>
    if c ∈ ['(', ')', '[', ']', '{', '}'] then c :: bracketsFrom .code cs else bracketsFrom (Place.after .code c) cs
  | p, c :: cs => bracketsFrom (p.after c) cs

/-- Every bracket closes the last one that is open, and none stays open; the brackets open so far are given by those
that close them. -/
def Match : List Char → Str → Prop
  | st, [] => st = []
  | st, c :: cs =>
    if c = '(' then Match (')' :: st) cs else if c = '[' then Match (']' :: st) cs
    else if c = '{' then Match ('}' :: st) cs
    else match st with
      | [] => False
      | t :: st' => c = t ∧ Match st' cs

end Spec

open Spec

/-- The bracket that a token is. -/
def tokBracket : PyTok → Option Char
  | .lpar => some '('
  | .rpar => some ')'
  | .lbrack => some '['
  | .rbrack => some ']'
  | .lbrace => some '{'
  | .rbrace => some '}'
  | _ => none

/-- Tokens whose brackets match among themselves. -/
def Neutral (u : List PyTok) : Prop := ∀ st cs, Match st (u.filterMap tokBracket ++ cs) ↔ Match st cs

theorem neutral_nil : Neutral [] := fun _ _ => Iff.rfl

theorem neutral_append {u v : List PyTok} (hu : Neutral u) (hv : Neutral v) : Neutral (u ++ v) := fun st cs => by
  rw [List.filterMap_append, List.append_assoc, hu, hv]

theorem neutral_plain {t : PyTok} (h : tokBracket t = none) : Neutral [t] := fun st cs => by
  rw [List.filterMap_cons_none h]; rfl

theorem neutral_par {u : List PyTok} (hu : Neutral u) : Neutral (.lpar :: u ++ [.rpar]) := fun st cs => by
  have : (PyTok.lpar :: u ++ [PyTok.rpar]).filterMap tokBracket ++ cs =
      '(' :: (u.filterMap tokBracket ++ (')' :: cs)) := by simp [tokBracket]
  rw [this]
  exact (Iff.trans (by rw [Match.eq_def]; exact Iff.rfl) (hu (')' :: st) (')' :: cs))).trans (by simp [Match])

theorem neutral_brack {u : List PyTok} (hu : Neutral u) : Neutral (.lbrack :: u ++ [.rbrack]) := fun st cs => by
  have : (PyTok.lbrack :: u ++ [PyTok.rbrack]).filterMap tokBracket ++ cs =
      '[' :: (u.filterMap tokBracket ++ (']' :: cs)) := by simp [tokBracket]
  rw [this]
  exact (Iff.trans (by rw [Match.eq_def]; exact Iff.rfl) (hu (']' :: st) (']' :: cs))).trans (by simp [Match])

theorem neutral_brace {u : List PyTok} (hu : Neutral u) : Neutral (.lbrace :: u ++ [.rbrace]) := fun st cs => by
  have : (PyTok.lbrace :: u ++ [PyTok.rbrace]).filterMap tokBracket ++ cs =
      '{' :: (u.filterMap tokBracket ++ ('}' :: cs)) := by simp [tokBracket]
  rw [this]
  exact (Iff.trans (by rw [Match.eq_def]; exact Iff.rfl) (hu ('}' :: st) ('}' :: cs))).trans (by simp [Match])

theorem joinStrs_neutral : ∀ (r : List PyTok) (s : Str), ∃ u, r = u ++ (joinStrs s r).2 ∧ Neutral u := by
  intro r
  induction r with
  | nil => intro s; exact ⟨[], rfl, neutral_nil⟩
  | cons t r ih =>
    intro s
    cases t with
    | str t =>
      obtain ⟨u, hu, hn⟩ := ih (s ++ t)
      exact ⟨.str t :: u, by rw [joinStrs, List.cons_append, ← hu], neutral_append (neutral_plain rfl) hn⟩
    | _ => exact ⟨[], rfl, neutral_nil⟩

theorem closer_is {k : Closer} {t : PyTok} (h : k.is t = true) :
    (k = .par ∧ t = .rpar) ∨ (k = .brack ∧ t = .rbrack) := by
  cases k <;> cases t <;> simp_all [Closer.is]

theorem parse_neutral : ∀ n : Nat,
    (∀ ts v r, parseLit n ts = .ok (v, r) → ∃ u, ts = u ++ r ∧ Neutral u) ∧
    (∀ k ts l b r, parseSeq n k ts = .ok (l, b, r) → ∃ u t, ts = u ++ t :: r ∧ Neutral u ∧ k.is t = true) ∧
    ∀ ts l r, parsePairs n ts = .ok (l, r) → ∃ u, ts = u ++ .rbrace :: r ∧ Neutral u := by
  intro n
  induction n with
  | zero =>
    refine ⟨?_, ?_, ?_⟩
    · intro ts v r h; rw [parseLit] at h; cases h
    · intro k ts l b r h; rw [parseSeq] at h; cases h
    · intro ts l r h; rw [parsePairs] at h; cases h
  | succ n ih =>
    obtain ⟨ih1, ih2, ih3⟩ := ih
    refine ⟨?_, ?_, ?_⟩
    · intro ts v r h
      unfold parseLit at h
      split at h
      · cases h
      · rename_i s r' _
        injection h with h
        injection h with _ h
        obtain ⟨u, hu, hn⟩ := joinStrs_neutral r' s
        exact ⟨.str s :: u, by rw [← h, List.cons_append, ← hu], neutral_append (neutral_plain rfl) hn⟩
      · injection h with h; injection h with _ h
        exact ⟨[_], by rw [h]; rfl, neutral_plain rfl⟩
      · injection h with h; injection h with _ h
        exact ⟨[_], by rw [h]; rfl, neutral_plain rfl⟩
      · injection h with h; injection h with _ h
        exact ⟨[_, _], by rw [h]; rfl, neutral_append (u := [_]) (neutral_plain rfl) (neutral_plain rfl)⟩
      · injection h with h; injection h with _ h
        exact ⟨[_, _], by rw [h]; rfl, neutral_append (u := [_]) (neutral_plain rfl) (neutral_plain rfl)⟩
      · injection h with h; injection h with _ h
        exact ⟨[_, _], by rw [h]; rfl, neutral_append (u := [_]) (neutral_plain rfl) (neutral_plain rfl)⟩
      · injection h with h; injection h with _ h
        exact ⟨[_, _], by rw [h]; rfl, neutral_append (u := [_]) (neutral_plain rfl) (neutral_plain rfl)⟩
      · rename_i w r' _
        have : r' = r := by
          split at h
          · injection h with h; injection h
          · split at h
            · injection h with h; injection h
            · split at h
              · injection h with h; injection h
              · cases h
        exact ⟨[_], by rw [this]; rfl, neutral_plain rfl⟩
      · rename_i m r' heq
        obtain rfl : m = n := (Nat.succ.inj heq).symm
        obtain ⟨⟨l, b, r2⟩, h1, h2⟩ := bind_ok_inv h
        obtain ⟨u, t, hu, hn, ht⟩ := ih2 _ _ _ _ _ h1
        have : r2 = r := by
          simp only at h2
          split at h2
          · injection h2 with h2; injection h2
          · injection h2 with h2; injection h2
        subst this
        rcases closer_is ht with ⟨-, rfl⟩ | ⟨h0, -⟩
        · exact ⟨.lpar :: u ++ [.rpar], by rw [hu]; simp, neutral_par hn⟩
        · cases h0
      · rename_i m r' heq
        obtain rfl : m = n := (Nat.succ.inj heq).symm
        obtain ⟨⟨l, b, r2⟩, h1, h2⟩ := bind_ok_inv h
        obtain ⟨u, t, hu, hn, ht⟩ := ih2 _ _ _ _ _ h1
        have : r2 = r := by injection h2 with h2; injection h2
        subst this
        rcases closer_is ht with ⟨h0, -⟩ | ⟨-, rfl⟩
        · cases h0
        · exact ⟨.lbrack :: u ++ [.rbrack], by rw [hu]; simp, neutral_brack hn⟩
      · rename_i m r' heq
        obtain rfl : m = n := (Nat.succ.inj heq).symm
        obtain ⟨⟨l, r2⟩, h1, h2⟩ := bind_ok_inv h
        obtain ⟨u, hu, hn⟩ := ih3 _ _ _ h1
        have : r2 = r := by injection h2 with h2; injection h2
        subst this
        exact ⟨.lbrace :: u ++ [.rbrace], by rw [hu]; simp, neutral_brace hn⟩
      · cases h
    · intro k ts l b r h
      cases ts with
      | nil => rw [parseSeq] at h; cases h
      | cons t rest =>
        rw [parseSeq] at h
        split at h
        · rename_i ht
          injection h with h; injection h with _ h; injection h with _ h
          exact ⟨[], t, by rw [h]; rfl, neutral_nil, ht⟩
        · obtain ⟨⟨v, r'⟩, h1, h2⟩ := bind_ok_inv h
          obtain ⟨u, hu, hn⟩ := ih1 _ _ _ h1
          simp only at h2
          split at h2
          · obtain ⟨⟨l', b', r3⟩, h3, h4⟩ := bind_ok_inv h2
            obtain ⟨u', t', hu', hn', ht'⟩ := ih2 _ _ _ _ _ h3
            injection h4 with h4; injection h4 with _ h4; injection h4 with _ h4
            subst h4
            refine ⟨u ++ (.comma :: u'), t', by rw [hu, hu']; simp, neutral_append hn ?_, ht'⟩
            exact neutral_append (u := [.comma]) (neutral_plain rfl) hn'
          · split at h2
            · rename_i ht
              injection h2 with h2; injection h2 with _ h2; injection h2 with _ h2
              subst h2
              exact ⟨u, _, hu, hn, ht⟩
            · cases h2
          · cases h2
    · intro ts l r h
      unfold parsePairs at h
      split at h
      · cases h
      · injection h with h; injection h with _ h
        exact ⟨[], by rw [h]; rfl, neutral_nil⟩
      · rename_i m heq _
        obtain rfl : m = n := (Nat.succ.inj heq).symm
        obtain ⟨⟨k, r1⟩, h1, h2⟩ := bind_ok_inv h
        obtain ⟨u, hu, hn⟩ := ih1 _ _ _ h1
        simp only at h2
        split at h2
        · rename_i r' 
          obtain ⟨⟨v, r2⟩, h3, h4⟩ := bind_ok_inv h2
          obtain ⟨u', hu', hn'⟩ := ih1 _ _ _ h3
          simp only at h4
          split at h4
          · obtain ⟨⟨l', r4⟩, h5, h6⟩ := bind_ok_inv h4
            obtain ⟨u2, hu2, hn2⟩ := ih3 _ _ _ h5
            injection h6 with h6; injection h6 with _ h6
            subst h6
            refine ⟨u ++ ((.colon :: u') ++ (.comma :: u2)), by rw [hu, hu', hu2]; simp, neutral_append hn (neutral_append ?_ ?_)⟩
            · exact neutral_append (u := [.colon]) (neutral_plain rfl) hn'
            · exact neutral_append (u := [.comma]) (neutral_plain rfl) hn2
          · injection h4 with h4; injection h4 with _ h4
            subst h4
            exact ⟨u ++ (.colon :: u'), by rw [hu, hu']; simp,
              neutral_append hn (neutral_append (u := [.colon]) (neutral_plain rfl) hn')⟩
          · cases h4
        · cases h2

/-! ## Texts -/

theorem lexStr_place (q : Char) (hq : q = '\'' ∨ q = '"') : ∀ (cs : Str) (st : StrState) (s r : Str),
    lexStr q st cs = .ok (s, r) →
      bracketsFrom (match st with | .esc => .escaped q | _ => .quoted q) cs = bracketsFrom .code r := by
  intro cs
  induction cs with
  | nil => intro st s r h; unfold lexStr at h; cases h
  | cons c cs ih =>
    intro st s r h
    have hmap : ∀ (x : Except PyErr (Str × Str)) (f : Str → Str),
        x.map (fun r => (f r.1, r.2)) = .ok (s, r) → ∃ s', x = .ok (s', r) := by
      intro x f hx
      cases x with
      | error e => cases hx
      | ok p => injection hx with hx; injection hx with _ hx; exact ⟨p.1, by rw [← hx]⟩
    cases st with
    | plain =>
      rw [lexStr] at h
      show bracketsFrom (if c = q then .code else if c = '\\' then .escaped q else .quoted q) cs = _
      split at h
      · rename_i hc
        rw [if_pos hc]
        injection h with h; injection h with _ h
        rw [h]
      · rename_i hc
        rw [if_neg hc]
        split at h
        · cases h
        · split at h
          · rename_i hb
            rw [if_pos hb]
            exact ih .esc _ _ h
          · rename_i hb
            rw [if_neg hb]
            obtain ⟨s', h'⟩ := hmap _ (c :: ·) h
            exact ih .plain _ _ h'
    | esc =>
      rw [lexStr] at h
      show bracketsFrom (.quoted q) cs = _
      split at h
      · exact ih .plain _ _ h
      · split at h
        · exact ih (.hex 2 0) _ _ h
        · split at h
          · exact ih (.hex 4 0) _ _ h
          · split at h
            · exact ih (.hex 8 0) _ _ h
            · split at h
              · cases h
              · obtain ⟨s', h'⟩ := hmap _ (escChars c ++ ·) h
                exact ih .plain _ _ h'
    | hex k acc =>
      cases k with
      | zero => rw [lexStr] at h; cases h
      | succ k =>
        rw [lexStr] at h
        show bracketsFrom (if c = q then .code else if c = '\\' then .escaped q else .quoted q) cs = _
        cases hv : hexVal c with
        | none => rw [hv] at h; cases h
        | some d =>
          have hcq : c ≠ q := by
            rintro rfl
            rcases hq with rfl | rfl
            · exact absurd (hv.symm.trans (by decide : _ = none)) (by simp)
            · exact absurd (hv.symm.trans (by decide : _ = none)) (by simp)
          have hcb : c ≠ '\\' := by
            rintro rfl
            exact absurd (hv.symm.trans (by decide : _ = none)) (by simp)
          rw [if_neg hcq, if_neg hcb]
          rw [hv] at h
          cases k with
          | zero =>
            simp only at h
            cases hx : chrOf (16 * acc + d) with
            | error e => rw [hx] at h; cases h
            | ok x =>
              rw [hx] at h
              obtain ⟨s', h'⟩ := hmap _ (x :: ·) h
              exact ih .plain _ _ h'
          | succ k => exact ih (.hex (k + 1) _) _ _ h

theorem blankText_brackets : ∀ (cs : Str) (b : Bool), blankText b cs = true →
    bracketsFrom (if b then .comment else .code) cs = [] := by
  intro cs
  induction cs with
  | nil => intro b _; cases b <;> rfl
  | cons c cs ih =>
    intro b h
    cases b with
    | true =>
      rw [blankText] at h
      have := ih _ h
      show bracketsFrom (if c = '\n' then .code else .comment) cs = []
      by_cases hc : c = '\n'
      · rw [if_pos hc]; rw [hc] at this; exact this
      · rw [if_neg hc]
        rw [if_pos (by simpa using hc)] at this
        exact this
    | false =>
      rw [blankText] at h
      show bracketsFrom .code (c :: cs) = []
      split at h
      · rename_i hc
        subst hc
        exact ih true h
      · rw [Bool.and_eq_true] at h
        have := ih false h.2
        have hc : c = ' ' ∨ c = '\t' ∨ c = '\n' := by simpa [or_assoc] using h.1
        rcases hc with rfl | rfl | rfl <;> exact this

theorem dropLead_brackets : ∀ (cs : Str) (b : Bool),
    bracketsFrom (if b then .comment else .code) cs = bracketsFrom .code (dropLead b cs) := by
  intro cs
  induction cs with
  | nil => intro b; cases b <;> rfl
  | cons c cs ih =>
    intro b
    cases b with
    | true =>
      rw [dropLead, ← ih]
      show bracketsFrom (if c = '\n' then .code else .comment) cs = _
      by_cases hc : c = '\n'
      · rw [if_pos hc, hc]; rfl
      · rw [if_neg hc, if_pos (by simpa using hc)]
    | false =>
      rw [dropLead]
      show bracketsFrom .code (c :: cs) = _
      split
      · rename_i hc
        subst hc
        rw [← ih]
        rfl
      · split
        · rename_i hc
          rw [← ih]
          rcases hc with rfl | rfl | rfl <;> rfl
        · rfl

theorem dropComment_brackets : ∀ cs : Str,
    bracketsFrom .comment cs = bracketsFrom .code (cs.dropWhile (· != '\n')) := by
  intro cs
  induction cs with
  | nil => rfl
  | cons c cs ih =>
    rw [List.dropWhile_cons]
    show bracketsFrom (if c = '\n' then .code else .comment) cs = _
    by_cases hc : c = '\n'
    · rw [if_pos hc, if_neg (by simpa using hc), hc]; rfl
    · rw [if_neg hc, if_pos (by simpa using hc), ih]

/-- Characters of names and numbers are neither brackets nor quotes nor comment signs. -/
theorem code_char {c : Char} (h : isNameChar c = true ∨ c = '.' ∨ c = '+' ∨ c = '-') (cs : Str) :
    bracketsFrom .code (c :: cs) = bracketsFrom .code cs := by
  have hn : ∀ x, isNameChar x = false → x ≠ '.' → x ≠ '+' → x ≠ '-' → c ≠ x := by
    rintro x h1 h2 h3 h4 rfl
    rcases h with h | h | h | h
    · rw [h] at h1; cases h1
    · exact h2 h
    · exact h3 h
    · exact h4 h
  have e1 := hn '(' (by decide) (by decide) (by decide) (by decide)
  have e2 := hn ')' (by decide) (by decide) (by decide) (by decide)
  have e3 := hn '[' (by decide) (by decide) (by decide) (by decide)
  have e4 := hn ']' (by decide) (by decide) (by decide) (by decide)
  have e5 := hn '{' (by decide) (by decide) (by decide) (by decide)
  have e6 := hn '}' (by decide) (by decide) (by decide) (by decide)
  have e7 := hn '#' (by decide) (by decide) (by decide) (by decide)
  have e8 := hn '\'' (by decide) (by decide) (by decide) (by decide)
  have e9 := hn '"' (by decide) (by decide) (by decide) (by decide)
  rw [bracketsFrom, if_neg (by simp [e1, e2, e3, e4, e5, e6])]
  show bracketsFrom (if c = '#' then .comment else if c = '\'' ∨ c = '"' then .quoted c else .code) cs = _
  rw [if_neg e7, if_neg (by simp [e8, e9])]

theorem munchNum_brackets : ∀ (cs : Str) (b : Bool), bracketsFrom .code cs = bracketsFrom .code (munchNum b cs).2 := by
  intro cs
  induction cs with
  | nil => intro b; rfl
  | cons c cs ih =>
    intro b
    rw [munchNum]
    split
    · rename_i h
      rw [code_char ?_ cs]
      · exact ih _
      · simp only [Bool.or_eq_true, Bool.and_eq_true, beq_iff_eq] at h
        rcases h with (h | h) | ⟨-, h | h⟩
        · exact Or.inl h
        · exact Or.inr (Or.inl h)
        · exact Or.inr (Or.inr (Or.inl h))
        · exact Or.inr (Or.inr (Or.inr h))
    · rfl

theorem dropName_brackets : ∀ cs : Str, bracketsFrom .code cs = bracketsFrom .code (cs.dropWhile isNameChar) := by
  intro cs
  induction cs with
  | nil => rfl
  | cons c cs ih =>
    rw [List.dropWhile_cons]
    split
    · rename_i h
      rw [code_char (Or.inl h), ih]
    · rfl

theorem readNum_tok {rnd : ℚ → FloatVal} {s : Str} {t : PyTok} (h : readNum rnd s = some t) : tokBracket t = none := by
  unfold readNum at h
  split at h
  · split at h
    · cases h
    · injection h with h; rw [← h]; rfl
  · simp only at h
    split at h
    · cases h
    · split at h
      · injection h with h; rw [← h]; rfl
      · cases h

theorem punct_brackets {c : Char} {t : PyTok} (h : punct c = some t) (cs : Str) :
    bracketsFrom .code (c :: cs) = (tokBracket t).toList ++ bracketsFrom .code cs := by
  unfold punct at h
  repeat' split at h
  all_goals first
    | (injection h with h; subst h; rename_i hc; subst hc; rfl)
    | cases h

theorem lexText_brackets (rnd : ℚ → FloatVal) : ∀ (n d : Nat) (cs : Str) (toks : List PyTok),
    lexText rnd n d cs = .ok toks → toks.filterMap tokBracket = bracketsFrom .code cs := by
  intro n
  induction n with
  | zero =>
    intro d cs toks h
    cases cs with
    | nil => rw [lexText] at h; injection h with h; rw [← h]; rfl
    | cons c cs => rw [lexText] at h; cases h
  | succ n ih =>
    intro d cs toks h
    have hmap : ∀ (x : Except PyErr (List PyTok)) (t : PyTok), x.map (t :: ·) = .ok toks →
        ∃ l, x = .ok l ∧ toks = t :: l := by
      intro x t hx
      cases x with
      | error e => cases hx
      | ok p => injection hx with hx; exact ⟨p, rfl, hx.symm⟩
    cases cs with
    | nil => rw [lexText] at h; injection h with h; rw [← h]; rfl
    | cons c cs =>
      rw [lexText] at h
      split at h
      · rename_i hc
        rw [ih _ _ _ h]
        rcases hc with rfl | rfl <;> rfl
      · split at h
        · rename_i hc
          subst hc
          split at h
          · split at h
            · rename_i hb
              injection h with h
              rw [← h]
              exact (blankText_brackets cs false hb).symm
            · cases h
          · rw [ih _ _ _ h]; rfl
        · split at h
          · rename_i hc
            subst hc
            rw [ih _ _ _ h, ← dropComment_brackets]
            rfl
          · split at h
            · rename_i hc
              split at h
              · cases h
              · split at h
                · cases h
                · rename_i s r hs
                  obtain ⟨l, h1, h2⟩ := hmap _ _ h
                  rw [h2, List.filterMap_cons_none rfl, ih _ _ _ h1, ← lexStr_place c hc cs .plain s r hs]
                  rcases hc with rfl | rfl <;> rfl
            · split at h
              · simp only at h
                split at h
                · cases h
                · rename_i t ht
                  obtain ⟨l, h1, h2⟩ := hmap _ _ h
                  rw [h2, List.filterMap_cons_none (readNum_tok ht), ih _ _ _ h1, ← munchNum_brackets]
              · split at h
                · obtain ⟨l, h1, h2⟩ := hmap _ _ h
                  rw [h2, List.filterMap_cons_none rfl, ih _ _ _ h1, ← dropName_brackets]
                · split at h
                  · cases h
                  · rename_i t ht
                    obtain ⟨l, h1, h2⟩ := hmap _ _ h
                    rw [h2, punct_brackets ht, ← ih _ _ _ h1]
                    cases t <;> rfl

/-- **C171** A text that is read has matching brackets outside its strings and comments. -/
theorem C171_matched (rnd : ℚ → FloatVal) (text : Str) (v : PyLit) (h : literalEval rnd text = .ok v) :
    Match [] (bracketsFrom .code text) := by
  unfold literalEval at h
  split at h
  · cases h
  · obtain ⟨toks, h1, h2⟩ := bind_ok_inv h
    obtain ⟨⟨w, r⟩, h3, h4⟩ := bind_ok_inv h2
    have hr : r = [] := by
      cases r with
      | nil => rfl
      | cons t r => simp only at h4; cases h4
    subst hr
    obtain ⟨u, hu, hn⟩ := (parse_neutral _).1 _ _ _ h3
    rw [List.append_nil] at hu
    have := hn [] []
    rw [List.append_nil, ← hu, lexText_brackets rnd _ _ _ _ h1, ← dropLead_brackets text false] at this
    exact this.2 rfl

/-- **C171** so a configuration file whose brackets do not match is refused, whatever else it holds. -/
theorem C171_refused (rnd : ℚ → FloatVal) (text : Str) (hm : ¬ Match [] (bracketsFrom .code text)) (env : Env)
    (seed : Option Int) : (∀ v, literalEval rnd text ≠ .ok v) ∧ ∀ c, readCfgText rnd env text seed ≠ .ok c := by
  have main : ∀ v, literalEval rnd text ≠ .ok v := fun v h => hm (C171_matched rnd text v h)
  refine ⟨main, ?_⟩
  intro c h
  unfold readCfgText at h
  cases hv : literalEval rnd text with
  | error e => rw [hv] at h; simp only [bind, Except.bind] at h; cases h
  | ok v => exact main v hv

/-- Brackets in strings and comments do not count. -/
example : bracketsFrom .code "{'a(': [1, (2, 3)], # ]\n}".toList = "{[()]}".toList ∧
    Match [] (bracketsFrom .code "{'a(': [1, (2, 3)], # ]\n}".toList) := by
  have h : bracketsFrom .code "{'a(': [1, (2, 3)], # ]\n}".toList = "{[()]}".toList := by decide +kernel
  exact ⟨h, by rw [h]; simp [Match]⟩

/-- A tuple closed by the wrong bracket. -/
example : ¬ Match [] (bracketsFrom .code "{'volc_early': (4e9, 3e9]}".toList) := by
  have h : bracketsFrom .code "{'volc_early': (4e9, 3e9]}".toList = "{(]}".toList := by decide +kernel
  rw [h]
  simp [Match]

end MoonPIES
