import Verif.Spec.PyText
import Mathlib.Tactic.Ring
import Mathlib.Data.List.TakeWhile

/-!
# Reading back the spellings of a value
-/

namespace MoonPIES

open Spec

/-! ## The tokenizer does not depend on its step bound -/

theorem lexStr_length (q : Char) : ∀ (cs : Str) (st : StrState) (s r : Str),
    lexStr q st cs = .ok (s, r) → r.length < cs.length := by
  intro cs
  induction cs with
  | nil => intro st s r h; cases st <;> simp [lexStr] at h
  | cons c cs ih =>
    intro st s r h
    have hmap : ∀ (st' : StrState) (f : Str → Str),
        (lexStr q st' cs).map (fun r => (f r.1, r.2)) = .ok (s, r) → r.length < (c :: cs).length := by
      intro st' f h'
      cases h2 : lexStr q st' cs with
      | error e => rw [h2] at h'; cases h'
      | ok p =>
        rw [h2] at h'
        simp only [Except.map, Except.ok.injEq, Prod.mk.injEq] at h'
        have := ih st' p.1 p.2 h2
        rw [h'.2] at this
        simp only [List.length_cons]; omega
    have hrec : ∀ st' : StrState, lexStr q st' cs = .ok (s, r) → r.length < (c :: cs).length := by
      intro st' h'
      have := ih st' s r h'
      simp only [List.length_cons]; omega
    cases st with
    | plain =>
      unfold lexStr at h
      split at h
      · simp only [Except.ok.injEq, Prod.mk.injEq] at h
        rw [← h.2]; simp
      split at h
      · cases h
      split at h
      · exact hrec _ h
      · exact hmap _ (fun x => c :: x) h
    | esc =>
      unfold lexStr at h
      split at h
      · exact hrec _ h
      split at h
      · exact hrec _ h
      split at h
      · exact hrec _ h
      split at h
      · exact hrec _ h
      split at h
      · cases h
      · exact hmap _ (fun x => _ ++ x) h
    | hex k acc =>
      cases k with
      | zero => simp [lexStr] at h
      | succ k =>
        unfold lexStr at h
        split at h
        · cases h
        · split at h
          · split at h
            · cases h
            · exact hmap _ (fun x => _ :: x) h
          · exact hrec _ h

theorem munchNum_length : ∀ (s : Str) (b : Bool), (munchNum b s).2.length ≤ s.length := by
  intro s
  induction s with
  | nil => intro b; simp [munchNum]
  | cons c cs ih =>
    intro b
    unfold munchNum
    split
    · have := ih (c == 'e' || c == 'E')
      simp only [List.length_cons]; omega
    · exact Nat.le_refl _

theorem munchNum_lt (c : Char) (cs : Str) (h : isNameChar c = true ∨ c = '.') :
    (munchNum false (c :: cs)).2.length ≤ cs.length := by
  unfold munchNum
  rw [if_pos (by rcases h with h | h <;> simp [h])]
  exact munchNum_length _ _

theorem isDigit_name {c : Char} (h : c.isDigit = true) : isNameChar c = true := by
  unfold isNameChar Char.isAlphanum
  rw [h]; simp

theorem dropWhile_len {α : Type} (p : α → Bool) (l : List α) : (l.dropWhile p).length ≤ l.length :=
  (List.dropWhile_sublist p).length_le

theorem lexText_fuel (rnd : ℚ → FloatVal) : ∀ (n m d : Nat) (s : Str), s.length ≤ n → s.length ≤ m →
    lexText rnd n d s = lexText rnd m d s := by
  intro n
  induction n with
  | zero =>
    intro m d s h1 _
    have : s = [] := List.length_eq_zero_iff.1 (by omega)
    subst this
    cases m <;> rfl
  | succ n ih =>
    intro m d s h1 h2
    cases s with
    | nil => cases m <;> rfl
    | cons c cs =>
      cases m with
      | zero => simp at h2
      | succ m =>
        simp only [List.length_cons, Nat.add_le_add_iff_right] at h1 h2
        have hr : ∀ d' (r : Str), r.length ≤ cs.length → lexText rnd n d' r = lexText rnd m d' r :=
          fun d' r hr => ih m d' r (by omega) (by omega)
        have hcs : ∀ d', lexText rnd n d' cs = lexText rnd m d' cs := fun d' => hr d' cs (Nat.le_refl _)
        unfold lexText
        split
        · exact hcs d
        split
        · split
          · rfl
          · exact hcs d
        split
        · exact hr d _ (dropWhile_len _ _)
        split
        · split
          · rfl
          · cases h3 : lexStr c .plain cs with
            | error e => rfl
            | ok p =>
              obtain ⟨s', r⟩ := p
              simp only []
              rw [hr d r (by have := lexStr_length c cs .plain s' r h3; omega)]
        split
        · rename_i h4
          simp only []
          have hm : (munchNum false (c :: cs)).2.length ≤ cs.length := by
            apply munchNum_lt
            rcases h4 with h4 | h4
            · exact Or.inl (isDigit_name h4)
            · exact Or.inr h4
          rw [hr d _ hm]
        split
        · rename_i h5
          simp only []
          rw [hr d _ (by rw [List.dropWhile_cons, if_pos h5]; exact dropWhile_len _ _)]
        · split
          · rfl
          · rw [hcs]

/-- The tokens of a text at a bracket depth. -/
def lexAll (rnd : ℚ → FloatVal) (d : Nat) (s : Str) : Except PyErr (List PyTok) := lexText rnd s.length d s

theorem lexText_eq_all (rnd : ℚ → FloatVal) (n d : Nat) (s : Str) (h : s.length ≤ n) :
    lexText rnd n d s = lexAll rnd d s := lexText_fuel rnd _ _ _ _ h (Nat.le_refl _)

theorem lexAll_cons (rnd : ℚ → FloatVal) (d : Nat) (c : Char) (cs : Str) :
    lexAll rnd d (c :: cs) = lexText rnd (cs.length + 1) d (c :: cs) := rfl

/-! ## Gaps -/

theorem lexAll_blank (rnd : ℚ → FloatVal) (d : Nat) {c : Char} (hc : c = ' ' ∨ c = '\t') (r : Str) :
    lexAll rnd d (c :: r) = lexAll rnd d r := by
  rw [lexAll_cons, lexText, if_pos hc]; rfl

theorem lexAll_newline (rnd : ℚ → FloatVal) {d : Nat} (hd : d ≠ 0) (r : Str) :
    lexAll rnd d ('\n' :: r) = lexAll rnd d r := by
  rw [lexAll_cons, lexText, if_neg (by decide), if_pos rfl, if_neg hd]; rfl

theorem dropWhile_comment {t : Str} (ht : '\n' ∉ t) (r : Str) :
    (t ++ '\n' :: r).dropWhile (· != '\n') = '\n' :: r := by
  induction t with
  | nil => simp
  | cons c t ih =>
    rw [List.mem_cons, not_or] at ht
    rw [List.cons_append, List.dropWhile_cons, if_pos (by simpa using fun e => ht.1 e.symm), ih ht.2]

theorem lexAll_hash (rnd : ℚ → FloatVal) (d : Nat) (r : Str) :
    lexAll rnd d ('#' :: r) = lexAll rnd d (r.dropWhile (· != '\n')) := by
  rw [lexAll_cons, lexText, if_neg (by decide), if_neg (by decide), if_pos rfl,
    lexText_eq_all _ _ _ _ (dropWhile_len _ _)]

theorem lexAll_gap (rnd : ℚ → FloatVal) {d : Nat} (hd : d ≠ 0) {g : Str} (hg : Gap g) (r : Str) :
    lexAll rnd d (g ++ r) = lexAll rnd d r := by
  induction hg with
  | nil => rfl
  | @blank c g hc _ ih =>
    rw [List.cons_append]
    rcases hc with h | h | h
    · rw [lexAll_blank rnd d (Or.inl h), ih]
    · rw [lexAll_blank rnd d (Or.inr h), ih]
    · rw [h, lexAll_newline rnd hd, ih]
  | @comment t g ht _ ih =>
    rw [List.cons_append, lexAll_hash, List.append_assoc, List.cons_append, dropWhile_comment ht,
      lexAll_newline rnd hd, ih]

theorem blankText_gap {g : Str} (hg : Gap g) (r : Str) : blankText false (g ++ r) = blankText false r := by
  induction hg with
  | nil => rfl
  | @blank c g hc _ ih =>
    rw [List.cons_append, blankText]
    rcases hc with rfl | rfl | rfl <;> simp [ih]
  | @comment t g ht _ ih =>
    rw [List.cons_append, blankText, if_pos rfl, List.append_assoc]
    have : ∀ t : Str, '\n' ∉ t → blankText true (t ++ ('\n' :: g ++ r)) = blankText false (g ++ r) := by
      intro t
      induction t with
      | nil => intro _; simp [blankText]
      | cons c t iht =>
        intro h
        rw [List.mem_cons, not_or] at h
        rw [List.cons_append, blankText]
        have hc : (c != '\n') = true := by simpa using fun e => h.1 e.symm
        rw [hc, iht h.2]
    rw [this t ht, ih]

theorem blankText_comment (t : Str) (ht : '\n' ∉ t) : blankText true t = true := by
  induction t with
  | nil => rfl
  | cons c t ih =>
    rw [List.mem_cons, not_or] at ht
    have hc : (c != '\n') = true := by simpa using fun e => ht.1 e.symm
    rw [blankText, hc, ih ht.2]

theorem dropWhile_nocomment {t : Str} (ht : '\n' ∉ t) : t.dropWhile (· != '\n') = [] := by
  rw [List.dropWhile_eq_nil_iff]
  intro c hc
  have : c ≠ '\n' := fun e => ht (e ▸ hc)
  simpa using this

theorem lexAll_gap_end (rnd : ℚ → FloatVal) {g : Str} (hg : Gap g) (r : Str)
    (hr : blankText false r = true) (hr2 : lexAll rnd 0 r = .ok []) : lexAll rnd 0 (g ++ r) = .ok [] := by
  have hnl : ∀ g' : Str, Gap g' → lexAll rnd 0 ('\n' :: (g' ++ r)) = .ok [] := by
    intro g' hg'
    rw [lexAll_cons, lexText, if_neg (by decide), if_pos rfl, if_pos rfl, if_pos]
    rw [blankText_gap hg', hr]
  induction hg with
  | nil => exact hr2
  | @blank c g hc hg ih =>
    rw [List.cons_append]
    rcases hc with h | h | h
    · rw [lexAll_blank rnd 0 (Or.inl h), ih]
    · rw [lexAll_blank rnd 0 (Or.inr h), ih]
    · rw [h]; exact hnl _ hg
  | @comment t g ht hg ih =>
    rw [List.cons_append, lexAll_hash, List.append_assoc, List.cons_append, dropWhile_comment ht]
    exact hnl _ hg

theorem lexAll_trail (rnd : ℚ → FloatVal) {b : Str} (hb : Trail b) : lexAll rnd 0 b = .ok [] := by
  rcases hb with hg | ⟨g, t, hg, ht, rfl⟩
  · have := lexAll_gap_end rnd hg [] rfl rfl
    rwa [List.append_nil] at this
  · refine lexAll_gap_end rnd hg _ ?_ ?_
    · rw [blankText, if_pos rfl, blankText_comment t ht]
    · rw [lexAll_hash, dropWhile_nocomment ht]; rfl

/-! ## Single tokens -/

/-- What may follow a value directly. -/
def StopChar (c : Char) : Prop :=
  c = ' ' ∨ c = '\t' ∨ c = '\n' ∨ c = '#' ∨ c = ',' ∨ c = ':' ∨ c = ')' ∨ c = ']' ∨ c = '}'

def Stops (r : Str) : Prop := ∀ c r', r = c :: r' → StopChar c

theorem stop_name {c : Char} (h : StopChar c) : isNameChar c = false ∧ c ≠ '.' ∧ c ≠ '+' ∧ c ≠ '-' ∧ c ≠ '\'' ∧ c ≠ '"' := by
  rcases h with rfl | rfl | rfl | rfl | rfl | rfl | rfl | rfl | rfl <;> decide

theorem gap_stops {g r : Str} (hg : Gap g) (hr : Stops r) : Stops (g ++ r) := by
  cases hg with
  | nil => exact hr
  | blank hc _ =>
    rintro c r' h
    rw [List.cons_append] at h
    injection h with h _
    subst h
    rcases hc with h | h | h <;> simp [StopChar, h]
  | comment _ _ =>
    rintro c r' h
    rw [List.cons_append] at h
    injection h with h _
    subst h
    simp [StopChar]

theorem stops_cons {c : Char} (h : StopChar c) (r : Str) : Stops (c :: r) := by
  rintro c' r' e
  injection e with e _
  exact e ▸ h

theorem gap_ne_stops {g : Str} (hg : Gap g) (hne : g ≠ []) (r : Str) : Stops (g ++ r) := by
  cases hg with
  | nil => exact absurd rfl hne
  | blank hc _ =>
    rintro c r' h
    rw [List.cons_append] at h
    injection h with h _
    subst h
    rcases hc with h | h | h <;> simp [StopChar, h]
  | comment _ _ =>
    rintro c r' h
    rw [List.cons_append] at h
    injection h with h _
    subst h
    simp [StopChar]

theorem lexAll_punct (rnd : ℚ → FloatVal) (d : Nat) (c : Char) (t : PyTok) (r : Str)
    (hc : c ∈ "{}()[],:-+".toList) (ht : punct c = some t) :
    lexAll rnd d (c :: r) = (lexAll rnd (depthAfter d t) r).map (t :: ·) := by
  have hp : c ≠ ' ' ∧ c ≠ '\t' ∧ c ≠ '\n' ∧ c ≠ '#' ∧ c ≠ '\'' ∧ c ≠ '"' ∧ c.isDigit = false ∧ c ≠ '.' ∧
      isNameChar c = false := by
    have : ∀ c ∈ "{}()[],:-+".toList, c ≠ ' ' ∧ c ≠ '\t' ∧ c ≠ '\n' ∧ c ≠ '#' ∧ c ≠ '\'' ∧ c ≠ '"' ∧
      c.isDigit = false ∧ c ≠ '.' ∧ isNameChar c = false := by decide +kernel
    exact this c hc
  obtain ⟨h1, h2, h3, h4, h5, h6, h7, h8, h9⟩ := hp
  rw [lexAll_cons, lexText, if_neg (by tauto), if_neg h3, if_neg h4, if_neg (by tauto),
    if_neg (by rw [h7]; simp [h8]), if_neg (by rw [h9]; simp), ht]
  rfl

theorem lexAll_word (rnd : ℚ → FloatVal) (d : Nat) (w : Str) (hw : w ∈ ["None".toList, "True".toList, "False".toList] ++ ["inf".toList, "nan".toList])
    (r : Str) (hr : Stops r) : lexAll rnd d (w ++ r) = (lexAll rnd d r).map (.word w :: ·) := by
  have hall : ∀ x ∈ w, isNameChar x = true := by
    have : ∀ w ∈ ["None".toList, "True".toList, "False".toList] ++ ["inf".toList, "nan".toList], ∀ x ∈ w, isNameChar x = true := by decide +kernel
    exact this w hw
  have htd : (w ++ r).takeWhile isNameChar = w ∧ (w ++ r).dropWhile isNameChar = r := by
    rw [List.takeWhile_append_of_pos hall, List.dropWhile_append_of_pos hall]
    cases r with
    | nil => simp
    | cons c r' =>
      have := (stop_name (hr c r' rfl)).1
      simp [this]
  obtain ⟨c, cs, hc⟩ : ∃ c cs, w = c :: cs := by
    have : ∀ w ∈ ["None".toList, "True".toList, "False".toList] ++ ["inf".toList, "nan".toList], w ≠ [] := by decide +kernel
    exact List.exists_cons_of_ne_nil (this w hw)
  have hcc : c ≠ ' ' ∧ c ≠ '\t' ∧ c ≠ '\n' ∧ c ≠ '#' ∧ c ≠ '\'' ∧ c ≠ '"' ∧ c.isDigit = false ∧ c ≠ '.' := by
    have : ∀ w ∈ ["None".toList, "True".toList, "False".toList] ++ ["inf".toList, "nan".toList], ∀ x ∈ w.head?, x ≠ ' ' ∧ x ≠ '\t' ∧ x ≠ '\n' ∧ x ≠ '#' ∧
        x ≠ '\'' ∧ x ≠ '"' ∧ x.isDigit = false ∧ x ≠ '.' := by decide +kernel
    exact this w hw c (by rw [hc]; rfl)
  obtain ⟨h1, h2, h3, h4, h5, h6, h7, h8⟩ := hcc
  subst hc
  rw [List.cons_append] at htd ⊢
  rw [lexAll_cons, lexText, if_neg (by tauto), if_neg h3, if_neg h4, if_neg (by tauto),
    if_neg (by rw [h7]; simp [h8]), if_pos (hall c (by simp))]
  simp only [htd.1, htd.2]
  rw [lexText_eq_all _ _ _ _ (by simp)]

/-! ## Numbers -/

theorem digitChar_facts : ∀ d : Fin 10, (Nat.digitChar d.val).isDigit = true ∧ (Nat.digitChar d.val).toNat - 48 = d.val ∧
    (Nat.digitChar d.val ≠ 'e') ∧ (Nat.digitChar d.val ≠ 'E') ∧ Nat.digitChar d.val ≠ '.' ∧
    (Nat.digitChar d.val = '0' → d = 0) ∧ Nat.digitChar d.val ≠ '+' ∧ Nat.digitChar d.val ≠ '-' := by
  decide +kernel

theorem digitText_isDigit (ds : List (Fin 10)) : (digitText ds).all Char.isDigit = true := by
  rw [List.all_eq_true]
  intro c hc
  obtain ⟨d, -, rfl⟩ := List.mem_map.1 hc
  exact (digitChar_facts d).1

theorem digitText_append (a b : List (Fin 10)) : digitText (a ++ b) = digitText a ++ digitText b :=
  List.map_append ..

theorem digitText_length (a : List (Fin 10)) : (digitText a).length = a.length := List.length_map ..

theorem digitsNat_text (ds : List (Fin 10)) : digitsNat (digitText ds) = digitNum ds := by
  have h : ∀ (ds : List (Fin 10)) (n : Nat), (digitText ds).foldl (fun n c => 10 * n + (c.toNat - 48)) n =
      n * 10 ^ ds.length + digitNum ds := by
    intro ds
    induction ds with
    | nil => intro n; simp [digitText, digitNum]
    | cons d ds ih =>
      intro n
      show (digitText ds).foldl _ (10 * n + ((Nat.digitChar d.val).toNat - 48)) = _
      rw [ih, (digitChar_facts d).2.1, digitNum, List.length_cons]
      ring
  rw [digitsNat, h, Nat.zero_mul, Nat.zero_add]

theorem munchNum_append : ∀ (s : Str) (b : Bool) (r : Str), munchNum b s = (s, []) → Stops r →
    munchNum b (s ++ r) = (s, r) := by
  intro s
  induction s with
  | nil =>
    intro b r _ hr
    cases r with
    | nil => rfl
    | cons c r' =>
      obtain ⟨h1, h2, h3, h4, -⟩ := stop_name (hr c r' rfl)
      rw [List.nil_append, munchNum, if_neg]
      simp [h1, h2, h3, h4]
  | cons c cs ih =>
    intro b r h hr
    rw [munchNum] at h
    rw [List.cons_append, munchNum]
    split at h
    · rename_i hc
      rw [if_pos hc]
      simp only [Prod.mk.injEq, List.cons.injEq, true_and] at h
      have := ih (c == 'e' || c == 'E') r (Prod.ext h.1 h.2) hr
      simp only [this]
    · simp at h

theorem munchNum_digits (ds : List (Fin 10)) : ∀ (b : Bool) (r : Str), (ds ≠ [] ∨ b = false) →
    munchNum false r = (r, []) → munchNum b (digitText ds ++ r) = (digitText ds ++ r, []) := by
  induction ds with
  | nil =>
    intro b r hb h
    rcases hb with hb | hb
    · exact absurd rfl hb
    · rw [hb]; exact h
  | cons d ds ih =>
    intro b r _ h
    obtain ⟨h1, -, h3, h4, -⟩ := digitChar_facts d
    show munchNum b (Nat.digitChar d.val :: (digitText ds ++ r)) = _
    rw [munchNum, if_pos (by simp [isDigit_name h1])]
    have he : (Nat.digitChar d.val == 'e' || Nat.digitChar d.val == 'E') = false := by simp [h3, h4]
    rw [he, ih false r (Or.inr rfl) h]
    rfl

theorem munchNum_exp {e : Int} {es : Str} (h : ExpText e es) : munchNum false es = (es, []) := by
  have hd : ∀ (ds : List (Fin 10)) b, ds ≠ [] → munchNum b (digitText ds) = (digitText ds, []) := by
    intro ds b h
    have := munchNum_digits ds b [] (Or.inl h) rfl
    rwa [List.append_nil] at this
  cases h with
  | none => rfl
  | plain E ds hE hne =>
    rcases hE with rfl | rfl
    · rw [munchNum, if_pos (by decide)]
      simp only [hd ds _ hne]
    · rw [munchNum, if_pos (by decide)]
      simp only [hd ds _ hne]
  | plus E ds hE hne =>
    rcases hE with rfl | rfl
    · rw [munchNum, if_pos (by decide), munchNum, if_pos (by decide)]
      simp only [hd ds _ hne]
    · rw [munchNum, if_pos (by decide), munchNum, if_pos (by decide)]
      simp only [hd ds _ hne]
  | minus E ds hE hne =>
    rcases hE with rfl | rfl
    · rw [munchNum, if_pos (by decide), munchNum, if_pos (by decide)]
      simp only [hd ds _ hne]
    · rw [munchNum, if_pos (by decide), munchNum, if_pos (by decide)]
      simp only [hd ds _ hne]

theorem munchNum_dec {q : ℚ} {s : Str} (h : DecText q s) : munchNum false s = (s, []) := by
  cases h with
  | point ip fp e es _ he =>
    refine munchNum_digits ip false _ (Or.inr rfl) ?_
    rw [munchNum, if_pos (by decide)]
    have := munchNum_digits fp false es (Or.inr rfl) (munchNum_exp he)
    have hb : (('.' : Char) == 'e' || ('.' : Char) == 'E') = false := by decide
    rw [hb, this]
  | exp ip e es _ _ he => exact munchNum_digits ip false _ (Or.inr rfl) (munchNum_exp he)

theorem munchNum_nat {n : Nat} {s : Str} (h : NatText n s) : munchNum false s = (s, []) := by
  obtain ⟨ds, -, rfl, -⟩ := h
  have := munchNum_digits ds false [] (Or.inr rfl) rfl
  rwa [List.append_nil] at this

theorem readNum_nat (rnd : ℚ → FloatVal) {n : Nat} {s : Str} (h : NatText n s) :
    readNum rnd s = some (.int n) := by
  obtain ⟨ds, hne, rfl, hn, hz⟩ := h
  unfold readNum
  rw [if_pos (digitText_isDigit ds), if_neg, digitsNat_text, hn]
  rintro ⟨h1, h2⟩
  apply h2
  rw [List.all_eq_true]
  have h0 : ds.head? = some 0 := by
    cases ds with
    | nil => exact absurd rfl hne
    | cons d ds =>
      have : Nat.digitChar d.val = '0' := by simpa [digitText] using h1
      rw [(digitChar_facts d).2.2.2.2.2.1 this]; rfl
  intro c hc
  obtain ⟨d, hd, rfl⟩ := List.mem_map.1 hc
  rw [hz h0 d hd]
  rfl

theorem readExp_text {e : Int} {E : Char} {t : Str} (h : ExpText e (E :: t)) :
    readExp t = some e ∧ (E = 'e' ∨ E = 'E') := by
  have hd : ∀ ds : List (Fin 10), ds ≠ [] → digitText ds ≠ [] := by
    intro ds h e
    exact h (List.map_eq_nil_iff.1 e)
  cases h with
  | plain _ ds hE hne =>
    refine ⟨?_, hE⟩
    cases ds with
    | nil => exact absurd rfl hne
    | cons d ds =>
      obtain ⟨-, -, -, -, -, -, h7, h8⟩ := digitChar_facts d
      show readExp (Nat.digitChar d.val :: digitText ds) = _
      have hc : digitText (d :: ds) = Nat.digitChar d.val :: digitText ds := rfl
      rw [← hc]
      unfold readExp
      split
      · rename_i heq; rw [hc] at heq; injection heq with heq _; exact absurd heq h8
      · rename_i heq; rw [hc] at heq; injection heq with heq _; exact absurd heq h7
      · rw [if_pos ⟨hd _ hne, digitText_isDigit _⟩, digitsNat_text]
  | plus _ ds hE hne =>
    exact ⟨by rw [readExp, if_pos ⟨hd _ hne, digitText_isDigit _⟩, digitsNat_text], hE⟩
  | minus _ ds hE hne =>
    exact ⟨by rw [readExp, if_pos ⟨hd _ hne, digitText_isDigit _⟩, digitsNat_text], hE⟩

theorem readNum_parts (rnd : ℚ → FloatVal) (mant es ip fp : Str) (e : Int) (he : ExpText e es)
    (hm : ∀ c ∈ mant, c ≠ 'e' ∧ c ≠ 'E') (hip : ip = mant.takeWhile (· != '.'))
    (hfp : fp = (mant.dropWhile (· != '.')).drop 1) (hd1 : ip.all Char.isDigit = true)
    (hd2 : fp.all Char.isDigit = true) (hne : ip ++ fp ≠ []) (hnd : (mant ++ es).all Char.isDigit = false) :
    readNum rnd (mant ++ es) =
      some (.float (rnd ((digitsNat (ip ++ fp) : ℚ) * (10 : ℚ) ^ (e - (fp.length : Int))))) := by
  have hpos : ∀ c ∈ mant, (fun c : Char => !(c == 'e' || c == 'E')) c = true := by
    intro c hc
    simp [hm c hc]
  have ht : (mant ++ es).takeWhile (fun c : Char => !(c == 'e' || c == 'E')) = mant ∧
      (mant ++ es).dropWhile (fun c : Char => !(c == 'e' || c == 'E')) = es := by
    rw [List.takeWhile_append_of_pos hpos, List.dropWhile_append_of_pos hpos]
    cases es with
    | nil => simp
    | cons E t =>
      obtain ⟨-, hE⟩ := readExp_text he
      rcases hE with rfl | rfl <;> simp
  unfold readNum
  rw [if_neg (by rw [hnd]; simp)]
  simp only [ht.1, ht.2, ← hip, ← hfp]
  have hexp : tailExp es = some e := by
    cases es with
    | nil => cases he; rfl
    | cons E t => exact (readExp_text he).1
  rw [hexp]
  simp only []
  rw [if_pos ⟨hd1, hd2, hne⟩]

theorem readNum_dec (rnd : ℚ → FloatVal) {q : ℚ} {s : Str} (h : DecText q s) :
    readNum rnd s = some (.float (rnd q)) := by
  have hno : ∀ ds : List (Fin 10), ∀ c ∈ digitText ds, c ≠ 'e' ∧ c ≠ 'E' ∧ c ≠ '.' := by
    intro ds c hc
    obtain ⟨d, -, rfl⟩ := List.mem_map.1 hc
    obtain ⟨-, -, h3, h4, h5, -⟩ := digitChar_facts d
    exact ⟨h3, h4, h5⟩
  have hnd : ∀ ds : List (Fin 10), ∀ c ∈ digitText ds, (fun c : Char => c != '.') c = true := by
    intro ds c hc
    simpa using (hno ds c hc).2.2
  have hnil : ∀ ds : List (Fin 10), ds ≠ [] → digitText ds ≠ [] := by
    intro ds h e
    exact h (List.map_eq_nil_iff.1 e)
  cases h with
  | point ip fp e es hne he =>
    have := readNum_parts rnd (digitText ip ++ '.' :: digitText fp) es (digitText ip) (digitText fp) e he
      (by
        intro c hc
        rcases List.mem_append.1 hc with h | h
        · exact ⟨(hno ip c h).1, (hno ip c h).2.1⟩
        · rcases List.mem_cons.1 h with rfl | h
          · decide
          · exact ⟨(hno fp c h).1, (hno fp c h).2.1⟩)
      (by rw [List.takeWhile_append_of_pos (hnd ip)]; simp)
      (by rw [List.dropWhile_append_of_pos (hnd ip)]; simp)
      (digitText_isDigit ip) (digitText_isDigit fp)
      (by rw [← digitText_append]; exact hnil _ hne)
      (by simp)
    rw [List.append_assoc, List.cons_append] at this
    rw [this, ← digitText_append, digitsNat_text, digitText_length]
  | exp ip e es hne hes he =>
    have := readNum_parts rnd (digitText ip) es (digitText ip) [] e he
      (fun c h => ⟨(hno ip c h).1, (hno ip c h).2.1⟩)
      (by
        have := List.takeWhile_append_of_pos (l₂ := []) (hnd ip)
        simpa using this.symm)
      (by
        have := List.dropWhile_append_of_pos (l₂ := []) (hnd ip)
        rw [List.append_nil] at this
        rw [this]; rfl)
      (digitText_isDigit ip) rfl
      (by rw [List.append_nil]; exact hnil _ hne)
      (by
        cases es with
        | nil => exact absurd rfl hes
        | cons E t =>
          obtain ⟨-, hE⟩ := readExp_text he
          rcases hE with rfl | rfl <;> simp)
    rw [this, List.append_nil, digitsNat_text]
    simp

theorem lexAll_num (rnd : ℚ → FloatVal) (d : Nat) (s : Str) (t : PyTok) (r : Str) (hr : Stops r)
    (hm : munchNum false s = (s, [])) (ht : readNum rnd s = some t) (hne : s ≠ [])
    (hc : ∀ c ∈ s.head?, c.isDigit = true ∨ c = '.') :
    lexAll rnd d (s ++ r) = (lexAll rnd d r).map (t :: ·) := by
  cases s with
  | nil => exact absurd rfl hne
  | cons c cs =>
    have hcd := hc c rfl
    have hcc : c ≠ ' ' ∧ c ≠ '\t' ∧ c ≠ '\n' ∧ c ≠ '#' ∧ c ≠ '\'' ∧ c ≠ '"' := by
      refine ⟨?_, ?_, ?_, ?_, ?_, ?_⟩ <;> rintro rfl <;> exact absurd hcd (by decide)
    obtain ⟨h1, h2, h3, h4, h5, h6⟩ := hcc
    have hmu := munchNum_append _ false r hm hr
    rw [List.cons_append] at hmu ⊢
    rw [lexAll_cons, lexText, if_neg (by tauto), if_neg h3, if_neg h4, if_neg (by tauto), if_pos hcd]
    simp only [hmu, ht]
    rw [lexText_eq_all _ _ _ _ (by simp)]

theorem head_digit (ds : List (Fin 10)) (r : Str) (hne : ds ≠ []) :
    ∀ c ∈ (digitText ds ++ r).head?, c.isDigit = true ∨ c = '.' := by
  cases ds with
  | nil => exact absurd rfl hne
  | cons d ds =>
    intro c hc
    have : c = Nat.digitChar d.val := by
      simpa [digitText, eq_comm] using hc
    rw [this]
    exact Or.inl (digitChar_facts d).1

theorem lexAll_nat (rnd : ℚ → FloatVal) (d : Nat) {n : Nat} {s : Str} (h : NatText n s) (r : Str) (hr : Stops r) :
    lexAll rnd d (s ++ r) = (lexAll rnd d r).map (.int n :: ·) := by
  refine lexAll_num rnd d s _ r hr (munchNum_nat h) (readNum_nat rnd h) ?_ ?_
  · obtain ⟨ds, hne, rfl, -⟩ := h
    exact fun e => hne (List.map_eq_nil_iff.1 e)
  · obtain ⟨ds, hne, rfl, -⟩ := h
    have := head_digit ds [] hne
    rwa [List.append_nil] at this

theorem lexAll_dec (rnd : ℚ → FloatVal) (d : Nat) {q : ℚ} {s : Str} (h : DecText q s) (r : Str) (hr : Stops r) :
    lexAll rnd d (s ++ r) = (lexAll rnd d r).map (.float (rnd q) :: ·) := by
  refine lexAll_num rnd d s _ r hr (munchNum_dec h) (readNum_dec rnd h) ?_ ?_
  · cases h with
    | point => simp
    | exp ip e es hne =>
      intro e'
      exact hne (List.map_eq_nil_iff.1 (List.append_eq_nil_iff.1 e').1)
  · cases h with
    | point ip fp e es hne he =>
      cases ip with
      | nil =>
        intro c hc
        have : c = '.' := by simpa [digitText, eq_comm] using hc
        exact Or.inr this
      | cons d ds => exact head_digit (d :: ds) _ (by simp)
    | exp ip e es hne => exact head_digit ip _ hne

/-! ## Strings -/

theorem hexVal_digit : ∀ k : Nat, k < 16 → hexVal (Nat.digitChar k) = some k := by decide +kernel

theorem lexStr_hex (q : Char) (x : Char) (r : Str) : ∀ (k n acc : Nat), n < 16 ^ (k + 1) →
    chrOf (16 ^ (k + 1) * acc + n) = .ok x →
    lexStr q (.hex (k + 1) acc) (hexText (k + 1) n ++ r) =
      (lexStr q .plain r).map (fun p => (x :: p.1, p.2)) := by
  intro k
  induction k with
  | zero =>
    intro n acc hn hx
    show lexStr q (.hex 1 acc) (Nat.digitChar (n / 16 ^ 0) :: r) = _
    rw [pow_zero, Nat.div_one, lexStr, hexVal_digit n (by simpa using hn)]
    have : chrOf (16 * acc + n) = .ok x := by simpa using hx
    simp only [this]
  | succ k ih =>
    intro n acc hn hx
    have hd : n / 16 ^ (k + 1) < 16 := by
      rw [Nat.div_lt_iff_lt_mul (by positivity)]
      rw [pow_succ] at hn
      omega
    show lexStr q (.hex (k + 1 + 1) acc) (Nat.digitChar (n / 16 ^ (k + 1)) :: (hexText (k + 1) (n % 16 ^ (k + 1)) ++ r)) = _
    rw [lexStr, hexVal_digit _ hd]
    simp only []
    apply ih
    · exact Nat.mod_lt _ (by positivity)
    · rw [← hx]
      congr 1
      have := Nat.div_add_mod n (16 ^ (k + 1))
      rw [pow_succ 16 (k + 1)]
      conv_rhs => rw [← this]
      ring

theorem chrOf_toNat (c : Char) : chrOf c.toNat = .ok c := by
  unfold chrOf
  rw [if_pos, Char.ofNat_toNat]
  have := c.valid
  unfold UInt32.isValidChar Nat.isValidChar at this
  have h : c.val.toNat = c.toNat := rfl
  rw [h] at this
  omega

theorem char_lt (c : Char) : c.toNat < 16 ^ 8 := by
  have := c.valid
  unfold UInt32.isValidChar Nat.isValidChar at this
  have h : c.val.toNat = c.toNat := rfl
  rw [h] at this
  omega

theorem lexStr_char {q : Char} (hq : q = '\'' ∨ q = '"') {c : Char} {t : Str} (h : CharText q c t) (r : Str) :
    lexStr q .plain (t ++ r) = (lexStr q .plain r).map (fun p => (c :: p.1, p.2)) := by
  have hbs : ∀ r' : Str, lexStr q .plain ('\\' :: r') = lexStr q .esc r' := by
    intro r'
    rw [lexStr, if_neg (by rcases hq with rfl | rfl <;> decide), if_neg (by decide), if_pos rfl]
  have hsimple : ∀ (x y : Char), (x ≠ '\n' ∧ x ≠ 'x' ∧ x ≠ 'u' ∧ x ≠ 'U' ∧ ¬ (x = 'N' ∨ ('0' ≤ x ∧ x ≤ '7'))) →
      escChars x = [y] → lexStr q .plain (['\\', x] ++ r) = (lexStr q .plain r).map (fun p => (y :: p.1, p.2)) := by
    rintro x y ⟨h1, h2, h3, h4, h5⟩ hy
    show lexStr q .plain ('\\' :: x :: r) = _
    rw [hbs, lexStr, if_neg h1, if_neg h2, if_neg h3, if_neg h4, if_neg h5, hy]
    rfl
  cases h with
  | plain _ h =>
    show lexStr q .plain (c :: r) = _
    rw [lexStr, if_neg h.1, if_neg h.2.2, if_neg h.2.1]
  | backslash => exact hsimple _ _ (by decide) (by decide)
  | single => exact hsimple _ _ (by decide) (by decide)
  | double => exact hsimple _ _ (by decide) (by decide)
  | newline => exact hsimple _ _ (by decide) (by decide)
  | tab => exact hsimple _ _ (by decide) (by decide)
  | ret => exact hsimple _ _ (by decide) (by decide)
  | hex2 _ h =>
    show lexStr q .plain ('\\' :: 'x' :: (hexText 2 c.toNat ++ r)) = _
    rw [hbs, lexStr, if_neg (by decide), if_pos rfl]
    exact lexStr_hex q c r 1 _ 0 h (by rw [Nat.mul_zero, Nat.zero_add]; exact chrOf_toNat c)
  | hex4 _ h =>
    show lexStr q .plain ('\\' :: 'u' :: (hexText 4 c.toNat ++ r)) = _
    rw [hbs, lexStr, if_neg (by decide), if_neg (by decide), if_pos rfl]
    exact lexStr_hex q c r 3 _ 0 h (by rw [Nat.mul_zero, Nat.zero_add]; exact chrOf_toNat c)
  | hex8 _ =>
    show lexStr q .plain ('\\' :: 'U' :: (hexText 8 c.toNat ++ r)) = _
    rw [hbs, lexStr, if_neg (by decide), if_neg (by decide), if_neg (by decide), if_pos rfl]
    exact lexStr_hex q c r 7 _ 0 (char_lt c) (by rw [Nat.mul_zero, Nat.zero_add]; exact chrOf_toNat c)

theorem lexStr_body {q : Char} (hq : q = '\'' ∨ q = '"') {s u : Str} (h : BodyText q s u) (r : Str) :
    lexStr q .plain (u ++ q :: r) = .ok (s, r) := by
  induction h with
  | nil => rw [List.nil_append, lexStr, if_pos rfl]
  | cons hc _ ih => rw [List.append_assoc, lexStr_char hq hc, ih]; rfl

theorem charText_head {q c : Char} {t : Str} (h : CharText q c t) (hq : q = '\'' ∨ q = '"') :
    ∃ x t', t = x :: t' ∧ x ≠ q := by
  cases h with
  | plain _ h => exact ⟨_, _, rfl, h.1⟩
  | _ => exact ⟨_, _, rfl, by rcases hq with rfl | rfl <;> decide⟩

theorem lexAll_quote (rnd : ℚ → FloatVal) (d : Nat) {s t : Str} (h : QuoteText s t) (r : Str) (hr : Stops r) :
    lexAll rnd d (t ++ r) = (lexAll rnd d r).map (.str s :: ·) := by
  obtain ⟨q, u, rfl, hq, hb⟩ : ∃ q u, t = q :: (u ++ [q]) ∧ (q = '\'' ∨ q = '"') ∧ BodyText q s u := by
    cases h with
    | mk hq hb => exact ⟨_, _, rfl, hq, hb⟩
  have ht : q :: (u ++ [q]) ++ r = q :: (u ++ q :: r) := by simp
  have hcc : q ≠ ' ' ∧ q ≠ '\t' ∧ q ≠ '\n' ∧ q ≠ '#' := by rcases hq with rfl | rfl <;> decide
  obtain ⟨h1, h2, h3, h4⟩ := hcc
  rw [ht, lexAll_cons, lexText, if_neg (by tauto), if_neg h3, if_neg h4, if_pos hq, if_neg, lexStr_body hq hb]
  · simp only []
    rw [lexText_eq_all _ _ _ _ (by simp; omega)]
  · cases hb with
    | nil =>
      rintro ⟨r', e⟩
      simp only [List.cons_append, List.nil_append, List.cons.injEq, true_and] at e
      obtain ⟨-, -, -, -, h5, h6⟩ := stop_name (hr q r' e.symm)
      rcases hq with h | h
      · exact h5 h
      · exact h6 h
    | @cons c s t u hc hs =>
      obtain ⟨x, t', rfl, hx⟩ := charText_head hc hq
      rintro ⟨r', e⟩
      simp only [List.cons_append, List.cons.injEq] at e
      exact hx e.1.symm

theorem lexAll_pieces (rnd : ℚ → FloatVal) {s t : Str} (h : PiecesText s t) :
    ∃ strs : List Str, strs ≠ [] ∧ strs.flatten = s ∧ ∀ d r, d ≠ 0 → Stops r →
      lexAll rnd d (t ++ r) = (lexAll rnd d r).map (strs.map .str ++ ·) := by
  induction h with
  | @one s t h => exact ⟨[s], by simp, by simp, fun d r _ hr => lexAll_quote rnd d h r hr⟩
  | @cons s t g s' t' h hg hne _ ih =>
    obtain ⟨strs, -, h2, h3⟩ := ih
    refine ⟨s :: strs, by simp, by simp [h2], ?_⟩
    intro d r hd hr
    rw [List.append_assoc, List.append_assoc, lexAll_quote rnd d h _ (gap_ne_stops hg hne _),
      lexAll_gap rnd hd hg, h3 d r hd hr]
    cases lexAll rnd d r <;> rfl

/-! ## Expressions -/

def NoStr (ts : List PyTok) : Prop := ∀ s r, ts ≠ .str s :: r

theorem joinStrs_pieces (strs : List Str) : ∀ (a : Str) (rest : List PyTok), NoStr rest →
    joinStrs a (strs.map .str ++ rest) = (a ++ strs.flatten, rest) := by
  induction strs with
  | nil =>
    intro a rest h
    rw [List.map_nil, List.nil_append, List.flatten_nil, List.append_nil]
    unfold joinStrs
    split
    · rename_i s t r; exact absurd rfl (h _ _)
    · rfl
  | cons s strs ih =>
    intro a rest h
    rw [List.map_cons, List.cons_append, joinStrs, ih _ _ h, List.flatten_cons, List.append_assoc]

theorem setKey_new (d : List (Str × PyLit)) (k : Str) (v : PyLit) (h : k ∉ d.map (·.1)) :
    setKey d k v = d ++ [(k, v)] := by
  unfold setKey
  rw [if_neg]
  rw [List.any_eq_true]
  rintro ⟨p, hp, e⟩
  exact h (List.mem_map.2 ⟨p, hp, of_decide_eq_true e⟩)

theorem dictDisplay_nodup (l : List (Str × PyLit)) (h : (l.map (·.1)).Nodup) : dictDisplay l = l := by
  have : ∀ (l a : List (Str × PyLit)), ((a ++ l).map (·.1)).Nodup →
      l.foldl (fun d p => setKey d p.1 p.2) a = a ++ l := by
    intro l
    induction l with
    | nil => intro a _; simp
    | cons p l ih =>
      intro a h
      rw [List.foldl_cons, setKey_new, ih]
      · simp
      · simpa using h
      · rw [List.map_append, List.map_cons] at h
        have := (List.nodup_append.1 h).2.2
        intro hm
        exact this _ hm _ (by simp) rfl
  exact this l [] (by simpa using h)

/-- What is shown of each part: its tokens, and that they are read back. -/
def Good (rnd : ℚ → FloatVal) : LitPart → Str → Prop
  | .lit v, s => ∃ toks : List PyTok,
      (∃ t ts, toks = t :: ts ∧ ∀ k : Closer, k.is t = false) ∧
      (∀ d r, (d ≠ 0 ∨ ∃ c ∈ s.head?, c = '(' ∨ c = '{') → Stops r →
        lexAll rnd d (s ++ r) = (lexAll rnd d r).map (toks ++ ·)) ∧
      ∀ n rest, 2 * toks.length ≤ n → NoStr rest → parseLit n (toks ++ rest) = .ok (v, rest)
  | .items l, s => ∃ toks : List PyTok,
      (∀ d r, d ≠ 0 → Stops r → lexAll rnd d (s ++ r) = (lexAll rnd d r).map (toks ++ ·)) ∧
      ∀ n (k : Closer) c rest, k.is c = true → 2 * toks.length + 1 ≤ n →
        ∃ b, parseSeq n k (toks ++ c :: rest) = .ok (l, b, rest)
  | .entries l, s => ∃ toks : List PyTok,
      (∀ d r, d ≠ 0 → Stops r → lexAll rnd d (s ++ r) = (lexAll rnd d r).map (toks ++ ·)) ∧
      ∀ n rest, 2 * toks.length + 1 ≤ n → parsePairs n (toks ++ .rbrace :: rest) = .ok (l, rest)

theorem map_map_tok {x : Except PyErr (List PyTok)} (a b : List PyTok) :
    (x.map (b ++ ·)).map (a ++ ·) = x.map (a ++ b ++ ·) := by
  cases x <;> simp [Except.map]

theorem map_cons_tok {x : Except PyErr (List PyTok)} (t : PyTok) : x.map (t :: ·) = x.map ([t] ++ ·) := rfl

theorem noStr_closer {k : Closer} {c : PyTok} (h : k.is c = true) (rest : List PyTok) : NoStr (c :: rest) := by
  intro s r e
  injection e with e _
  subst e
  cases k <;> cases h

theorem good_word (rnd : ℚ → FloatVal) (w : Str) (v : PyLit)
    (hw : w ∈ ["None".toList, "True".toList, "False".toList])
    (hp : ∀ n rest, parseLit (n + 1) (.word w :: rest) = .ok (v, rest)) : Good rnd (.lit v) w := by
  refine ⟨[.word w], ⟨_, _, rfl, fun k => by cases k <;> rfl⟩, ?_, ?_⟩
  · intro d r _ hr
    exact lexAll_word rnd d w (List.mem_append_left _ hw) r hr
  · intro n rest hn _
    obtain ⟨m, rfl⟩ : ∃ m, n = m + 1 := ⟨n - 1, by simp at hn; omega⟩
    exact hp m rest

theorem good_num (rnd : ℚ → FloatVal) (s : Str) (t : PyTok) (v : PyLit) (ht : ∀ k : Closer, k.is t = false)
    (hl : ∀ d r, Stops r → lexAll rnd d (s ++ r) = (lexAll rnd d r).map (t :: ·))
    (hp : ∀ n rest, parseLit (n + 1) (t :: rest) = .ok (v, rest)) : Good rnd (.lit v) s := by
  refine ⟨[t], ⟨_, _, rfl, ht⟩, fun d r _ hr => hl d r hr, ?_⟩
  intro n rest hn _
  obtain ⟨m, rfl⟩ : ∃ m, n = m + 1 := ⟨n - 1, by simp at hn; omega⟩
  exact hp m rest

theorem good_neg (rnd : ℚ → FloatVal) (s : Str) (t : PyTok) (v : PyLit)
    (hl : ∀ d r, Stops r → lexAll rnd d (s ++ r) = (lexAll rnd d r).map (t :: ·))
    (hp : ∀ n rest, parseLit (n + 1) (.minus :: t :: rest) = .ok (v, rest)) : Good rnd (.lit v) ('-' :: s) := by
  refine ⟨[.minus, t], ⟨_, _, rfl, fun k => by cases k <;> rfl⟩, ?_, ?_⟩
  · intro d r _ hr
    rw [List.cons_append, lexAll_punct rnd d '-' .minus _ (by decide) rfl]
    show (lexAll rnd d (s ++ r)).map _ = _
    rw [hl d r hr]
    cases lexAll rnd d r <;> rfl
  · intro n rest hn _
    obtain ⟨m, rfl⟩ : ∃ m, n = m + 1 := ⟨n - 1, by simp at hn; omega⟩
    exact hp m rest

theorem stop_comma : StopChar ',' := by simp [StopChar]
theorem stop_colon : StopChar ':' := by simp [StopChar]
theorem stop_rpar : StopChar ')' := by simp [StopChar]
theorem stop_rbrack : StopChar ']' := by simp [StopChar]
theorem stop_rbrace : StopChar '}' := by simp [StopChar]

theorem parseSeq_last {n : Nat} {k : Closer} {t c : PyTok} {ts : List PyTok} {v : PyLit} {r : List PyTok}
    (hk : k.is t = false) (hp : parseLit n (t :: ts) = .ok (v, c :: r)) (hc : k.is c = true) :
    parseSeq (n + 1) k (t :: ts) = .ok ([v], false, r) := by
  rw [parseSeq, if_neg (by rw [hk]; simp), hp]
  simp only [bind, Except.bind]
  cases k <;> cases c <;> first | rfl | cases hc

theorem parseSeq_comma {n : Nat} {k : Closer} {t : PyTok} {ts : List PyTok} {v : PyLit} {r r' : List PyTok}
    {l : List PyLit} {b : Bool} (hk : k.is t = false) (hp : parseLit n (t :: ts) = .ok (v, .comma :: r))
    (hs : parseSeq n k r = .ok (l, b, r')) : parseSeq (n + 1) k (t :: ts) = .ok (v :: l, b, r') := by
  rw [parseSeq, if_neg (by rw [hk]; simp), hp]
  simp only [bind, Except.bind, hs]

theorem parsePairs_last {n : Nat} {s : Str} {ts : List PyTok} {k : Str} {v : PyLit} {r r' : List PyTok}
    (hk : parseLit n (.str s :: ts) = .ok (.str k, .colon :: r)) (hv : parseLit n r = .ok (v, .rbrace :: r')) :
    parsePairs (n + 1) (.str s :: ts) = .ok ([(k, v)], r') := by
  rw [parsePairs, hk]
  · simp only [bind, Except.bind, hv]
  · intro r e; cases e

theorem parsePairs_comma {n : Nat} {s : Str} {ts : List PyTok} {k : Str} {v : PyLit} {r r' r'' : List PyTok}
    {l : List (Str × PyLit)} (hk : parseLit n (.str s :: ts) = .ok (.str k, .colon :: r))
    (hv : parseLit n r = .ok (v, .comma :: r')) (hl : parsePairs n r' = .ok (l, r'')) :
    parsePairs (n + 1) (.str s :: ts) = .ok ((k, v) :: l, r'') := by
  rw [parsePairs, hk]
  · simp only [bind, Except.bind, hv, hl]
  · intro r e; cases e

theorem noStr_comma (r : List PyTok) : NoStr (.comma :: r) := by
  intro s r e; cases e
theorem noStr_colon (r : List PyTok) : NoStr (.colon :: r) := by
  intro s r e; cases e
theorem noStr_rbrace (r : List PyTok) : NoStr (.rbrace :: r) := by
  intro s r e; cases e
theorem noStr_rpar (r : List PyTok) : NoStr (.rpar :: r) := by
  intro s r e; cases e

theorem parse_pieces {strs : List Str} (hne : strs ≠ []) (n : Nat) (rest : List PyTok) (h : NoStr rest) :
    parseLit (n + 1) (strs.map .str ++ rest) = .ok (.str strs.flatten, rest) := by
  cases strs with
  | nil => exact absurd rfl hne
  | cons s strs =>
    show parseLit (n + 1) (.str s :: (strs.map .str ++ rest)) = _
    rw [parseLit, joinStrs_pieces _ _ _ h]
    rfl

/-- The key of an entry, with the rest of the entry. -/
theorem pairs_lex (rnd : ℚ → FloatVal) {d : Nat} (hd : d ≠ 0) {ks g₁ g₂ s r : Str} {vt : List PyTok}
    {strs : List Str} (hks : ∀ r, Stops r → lexAll rnd d (ks ++ r) = (lexAll rnd d r).map (strs.map .str ++ ·))
    (h₁ : Gap g₁) (h₂ : Gap g₂) (hv : lexAll rnd d (s ++ r) = (lexAll rnd d r).map (vt ++ ·)) :
    lexAll rnd d (ks ++ (g₁ ++ ':' :: (g₂ ++ (s ++ r)))) =
      (lexAll rnd d r).map (strs.map .str ++ .colon :: vt ++ ·) := by
  rw [hks _ (gap_stops h₁ (stops_cons stop_colon _)), lexAll_gap rnd hd h₁,
    lexAll_punct rnd d ':' .colon _ (by decide) rfl]
  show ((lexAll rnd d (g₂ ++ (s ++ r))).map _).map _ = _
  rw [lexAll_gap rnd hd h₂, hv]
  cases lexAll rnd d r <;> simp [Except.map]

/-- A bracket around a text. -/
theorem bracket_lex (rnd : ℚ → FloatVal) (d : Nat) (o c : Char) (ot ct : PyTok) (ho : o ∈ "{}()[],:-+".toList)
    (hc : c ∈ "{}()[],:-+".toList) (hot : punct o = some ot) (hct : punct c = some ct)
    (hdo : depthAfter d ot = d + 1) (hdc : depthAfter (d + 1) ct = d) {g t : Str} {toks : List PyTok} (hg : Gap g)
    (r : Str) (ht : lexAll rnd (d + 1) (t ++ c :: r) = (lexAll rnd (d + 1) (c :: r)).map (toks ++ ·)) :
    lexAll rnd d (o :: (g ++ (t ++ [c])) ++ r) = (lexAll rnd d r).map (ot :: (toks ++ [ct]) ++ ·) := by
  have e : o :: (g ++ (t ++ [c])) ++ r = o :: (g ++ (t ++ c :: r)) := by simp
  rw [e, lexAll_punct rnd d o ot _ ho hot, hdo, lexAll_gap rnd (by omega) hg, ht,
    lexAll_punct rnd (d + 1) c ct r hc hct, hdc]
  cases lexAll rnd d r <;> simp [Except.map]

theorem writes_good (rnd : ℚ → FloatVal) {p : LitPart} {s : Str} (h : Writes rnd p s) : Good rnd p s := by
  induction h with
  | none => exact good_word rnd "None".toList _ (by decide) (fun n rest => by rw [parseLit, if_pos rfl])
  | true =>
    exact good_word rnd "True".toList _ (by decide) (fun n rest => by rw [parseLit, if_neg (by decide), if_pos rfl])
  | false =>
    exact good_word rnd "False".toList _ (by decide) (fun n rest => by
      rw [parseLit, if_neg (by decide), if_neg (by decide), if_pos rfl])
  | @int n s h =>
    exact good_num rnd s (.int n) _ (fun k => by cases k <;> rfl)
      (fun d r hr => lexAll_nat rnd d h r hr) (fun n rest => by rw [parseLit])
  | @negInt n s h =>
    exact good_neg rnd s (.int n) _
      (fun d r hr => lexAll_nat rnd d h r hr) (fun n rest => by rw [parseLit])
  | @float q s h =>
    exact good_num rnd s (.float (rnd q)) _ (fun k => by cases k <;> rfl)
      (fun d r hr => lexAll_dec rnd d h r hr) (fun n rest => by rw [parseLit])
  | @negFloat q x s h hx =>
    exact good_neg rnd s (.float (rnd q)) _
      (fun d r hr => lexAll_dec rnd d h r hr) (fun n rest => by rw [parseLit, hx]; rfl)
  | @str s t h =>
    obtain ⟨strs, h1, h2, h3⟩ := lexAll_pieces rnd h
    refine ⟨strs.map .str, ?_, ?_, ?_⟩
    · cases strs with
      | nil => exact absurd rfl h1
      | cons a l => exact ⟨_, _, rfl, fun k => by cases k <;> rfl⟩
    · intro d r hd hr
      refine h3 d r ?_ hr
      rcases hd with hd | ⟨c, hc, hb⟩
      · exact hd
      · exfalso
        have hq : ∃ q t', t = q :: t' ∧ (q = '\'' ∨ q = '"') := by
          cases h with
          | one h => cases h with
            | mk hq _ => exact ⟨_, _, rfl, hq⟩
          | cons h _ _ _ => cases h with
            | mk hq _ => exact ⟨_, _, rfl, hq⟩
        obtain ⟨q, t', rfl, hq⟩ := hq
        have : c = q := by simpa [eq_comm] using hc
        subst this
        rcases hq with rfl | rfl <;> exact absurd hb (by decide)
    · intro n rest hn hr
      have : 0 < strs.length := List.length_pos_iff.2 h1
      rw [List.length_map] at hn
      obtain ⟨m, rfl⟩ : ∃ m, n = m + 1 := ⟨n - 1, by omega⟩
      rw [parse_pieces h1 m rest hr, h2]
  | @paren v g s g' hg h hg' ih =>
    obtain ⟨toks, ⟨t, ts, rfl, ht⟩, h2, h3⟩ := ih
    refine ⟨.lpar :: ((t :: ts) ++ [.rpar]), ⟨_, _, rfl, fun k => by cases k <;> rfl⟩, ?_, ?_⟩
    · intro d r _ hr
      have := bracket_lex rnd d '(' ')' .lpar .rpar (by decide) (by decide) rfl rfl rfl rfl hg (t := s ++ g')
        (toks := t :: ts) r (by
          rw [List.append_assoc, h2 (d + 1) _ (Or.inl (by omega)) (gap_stops hg' (stops_cons stop_rpar _)),
            lexAll_gap rnd (by omega) hg'])
      rw [List.append_assoc] at this
      exact this
    · intro n rest hn _
      simp only [List.length_cons, List.length_append, List.length_nil] at hn
      obtain ⟨m, rfl⟩ : ∃ m, n = m + 1 + 1 := ⟨n - 2, by omega⟩
      have hp := h3 m (.rpar :: rest) (by simp only [List.length_cons]; omega) (noStr_rpar rest)
      have hs : parseSeq (m + 1) .par ((t :: ts) ++ .rpar :: rest) = .ok ([v], false, rest) :=
        parseSeq_last (k := .par) (ht _) hp rfl
      show parseLit (m + 1 + 1) (.lpar :: ((t :: ts) ++ [.rpar] ++ rest)) = _
      rw [parseLit, List.append_assoc, List.singleton_append, hs]
      rfl
  | @tuple l g t hl hg h ih =>
    obtain ⟨toks, h2, h3⟩ := ih
    refine ⟨.lpar :: (toks ++ [.rpar]), ⟨_, _, rfl, fun k => by cases k <;> rfl⟩, ?_, ?_⟩
    · intro d r _ hr
      exact bracket_lex rnd d '(' ')' .lpar .rpar (by decide) (by decide) rfl rfl rfl rfl hg r
        (h2 (d + 1) _ (by omega) (stops_cons stop_rpar _))
    · intro n rest hn _
      simp only [List.length_cons, List.length_append, List.length_nil] at hn
      obtain ⟨m, rfl⟩ : ∃ m, n = m + 1 := ⟨n - 1, by omega⟩
      obtain ⟨b, hb⟩ := h3 m .par .rpar rest rfl (by omega)
      show parseLit (m + 1) (.lpar :: (toks ++ [.rpar] ++ rest)) = _
      rw [parseLit, List.append_assoc, List.singleton_append, hb]
      simp only [bind, Except.bind]
      split
      · simp at hl
      · rfl
  | @single v g s g' g'' hg h hg' hg'' ih =>
    obtain ⟨toks, ⟨t, ts, rfl, ht⟩, h2, h3⟩ := ih
    refine ⟨.lpar :: ((t :: ts) ++ [.comma] ++ [.rpar]), ⟨_, _, rfl, fun k => by cases k <;> rfl⟩, ?_, ?_⟩
    · intro d r _ hr
      have := bracket_lex rnd d '(' ')' .lpar .rpar (by decide) (by decide) rfl rfl rfl rfl hg (t := s ++ (g' ++ ',' :: g''))
        (toks := (t :: ts) ++ [.comma]) r (by
          have e : s ++ (g' ++ ',' :: g'') ++ ')' :: r = s ++ (g' ++ ',' :: (g'' ++ ')' :: r)) := by simp
          rw [e, h2 (d + 1) _ (Or.inl (by omega)) (gap_stops hg' (stops_cons stop_comma _)),
            lexAll_gap rnd (by omega) hg', lexAll_punct rnd (d + 1) ',' .comma _ (by decide) rfl]
          show (Except.map _ (lexAll rnd (d + 1) (g'' ++ ')' :: r))).map _ = _
          rw [lexAll_gap rnd (by omega) hg'']
          cases lexAll rnd (d + 1) (')' :: r) <;> simp [Except.map])
      have e : s ++ (g' ++ ',' :: (g'' ++ [')'])) = s ++ (g' ++ ',' :: g'') ++ [')'] := by simp
      rw [e]
      exact this
    · intro n rest hn _
      simp only [List.length_cons, List.length_append, List.length_nil] at hn
      obtain ⟨m, rfl⟩ : ∃ m, n = m + 1 + 1 + 1 := ⟨n - 3, by omega⟩
      have hp := h3 (m + 1) (.comma :: .rpar :: rest) (by simp only [List.length_cons]; omega) (noStr_comma _)
      have hs : parseSeq (m + 1 + 1) .par ((t :: ts) ++ .comma :: .rpar :: rest) = .ok ([v], true, rest) :=
        parseSeq_comma (k := .par) (ht _) hp (l := []) (b := true) (r' := rest)
          (by rw [parseSeq, if_pos (show Closer.is .par .rpar = true from rfl)])
      show parseLit (m + 1 + 1 + 1) (.lpar :: ((t :: ts) ++ [.comma] ++ [.rpar] ++ rest)) = _
      have e : (t :: ts) ++ [.comma] ++ [.rpar] ++ rest = (t :: ts) ++ .comma :: .rpar :: rest := by simp
      rw [parseLit, e, hs]
      rfl
  | @list l g t hg h ih =>
    obtain ⟨toks, h2, h3⟩ := ih
    refine ⟨.lbrack :: (toks ++ [.rbrack]), ⟨_, _, rfl, fun k => by cases k <;> rfl⟩, ?_, ?_⟩
    · intro d r _ hr
      exact bracket_lex rnd d '[' ']' .lbrack .rbrack (by decide) (by decide) rfl rfl rfl rfl hg r
        (h2 (d + 1) _ (by omega) (stops_cons stop_rbrack _))
    · intro n rest hn _
      simp only [List.length_cons, List.length_append, List.length_nil] at hn
      obtain ⟨m, rfl⟩ : ∃ m, n = m + 1 := ⟨n - 1, by omega⟩
      obtain ⟨b, hb⟩ := h3 m .brack .rbrack rest rfl (by omega)
      show parseLit (m + 1) (.lbrack :: (toks ++ [.rbrack] ++ rest)) = _
      rw [parseLit, List.append_assoc, List.singleton_append, hb]
      rfl
  | @dict l g t hk hg h ih =>
    obtain ⟨toks, h2, h3⟩ := ih
    refine ⟨.lbrace :: (toks ++ [.rbrace]), ⟨_, _, rfl, fun k => by cases k <;> rfl⟩, ?_, ?_⟩
    · intro d r _ hr
      exact bracket_lex rnd d '{' '}' .lbrace .rbrace (by decide) (by decide) rfl rfl rfl rfl hg r
        (h2 (d + 1) _ (by omega) (stops_cons stop_rbrace _))
    · intro n rest hn _
      simp only [List.length_cons, List.length_append, List.length_nil] at hn
      obtain ⟨m, rfl⟩ : ∃ m, n = m + 1 := ⟨n - 1, by omega⟩
      have hb := h3 m rest (by omega)
      show parseLit (m + 1) (.lbrace :: (toks ++ [.rbrace] ++ rest)) = _
      rw [parseLit, List.append_assoc, List.singleton_append, hb]
      show Except.ok _ = _
      rw [dictDisplay_nodup l hk]
  | itemsNil =>
    refine ⟨[], ?_, ?_⟩
    · intro d r _ _
      cases h : lexAll rnd d r <;> simp [h, Except.map]
    · intro n k c rest hc hn
      obtain ⟨m, rfl⟩ : ∃ m, n = m + 1 := ⟨n - 1, by omega⟩
      exact ⟨true, by rw [List.nil_append, parseSeq, if_pos hc]⟩
  | @itemsOne v s g h hg ih =>
    obtain ⟨toks, ⟨t, ts, rfl, ht⟩, h2, h3⟩ := ih
    refine ⟨t :: ts, ?_, ?_⟩
    · intro d r hd hr
      rw [List.append_assoc, h2 d _ (Or.inl hd) (gap_stops hg hr), lexAll_gap rnd hd hg]
    · intro n k c rest hc hn
      obtain ⟨m, rfl⟩ : ∃ m, n = m + 1 := ⟨n - 1, by omega⟩
      have hp := h3 m (c :: rest) (by omega) (noStr_closer hc rest)
      exact ⟨false, parseSeq_last (ht k) hp hc⟩
  | @itemsCons v s g g' l t h hg hg' hl ih1 ih2 =>
    obtain ⟨toks, ⟨t1, ts, rfl, ht⟩, h2, h3⟩ := ih1
    obtain ⟨toks', h4, h5⟩ := ih2
    refine ⟨(t1 :: ts) ++ .comma :: toks', ?_, ?_⟩
    · intro d r hd hr
      have e : s ++ (g ++ ',' :: (g' ++ t)) ++ r = s ++ (g ++ ',' :: (g' ++ (t ++ r))) := by simp
      rw [e, h2 d _ (Or.inl hd) (gap_stops hg (stops_cons stop_comma _)), lexAll_gap rnd hd hg,
        lexAll_punct rnd d ',' .comma _ (by decide) rfl]
      show (Except.map _ (lexAll rnd d (g' ++ (t ++ r)))).map _ = _
      rw [lexAll_gap rnd hd hg', h4 d r hd hr]
      cases lexAll rnd d r <;> simp [Except.map]
    · intro n k c rest hc hn
      simp only [List.length_cons, List.length_append] at hn
      obtain ⟨m, rfl⟩ : ∃ m, n = m + 1 := ⟨n - 1, by omega⟩
      have hp := h3 m (.comma :: (toks' ++ c :: rest)) (by simp only [List.length_cons]; omega) (noStr_comma _)
      obtain ⟨b, hb⟩ := h5 m k c rest hc (by omega)
      refine ⟨b, ?_⟩
      rw [List.append_assoc, List.cons_append]
      exact parseSeq_comma (ht k) hp hb
  | entriesNil =>
    refine ⟨[], ?_, ?_⟩
    · intro d r _ _
      cases h : lexAll rnd d r <;> simp [h, Except.map]
    · intro n rest hn
      obtain ⟨m, rfl⟩ : ∃ m, n = m + 1 := ⟨n - 1, by omega⟩
      rw [List.nil_append, parsePairs]
  | @entriesOne k ks g₁ g₂ v s g hk h₁ h₂ h hg ih =>
    obtain ⟨toks, -, h2, h3⟩ := ih
    obtain ⟨strs, hne, hfl, hst⟩ := lexAll_pieces rnd hk
    refine ⟨strs.map .str ++ .colon :: toks, ?_, ?_⟩
    · intro d r hd hr
      have e : ks ++ (g₁ ++ ':' :: (g₂ ++ (s ++ g))) ++ r = ks ++ (g₁ ++ ':' :: (g₂ ++ (s ++ (g ++ r)))) := by simp
      rw [e, pairs_lex rnd hd (fun r hr => hst d r hd hr) h₁ h₂ (h2 d _ (Or.inl hd) (gap_stops hg hr)),
        lexAll_gap rnd hd hg]
    · intro n rest hn
      simp only [List.length_cons, List.length_append, List.length_map] at hn
      have hpos : 0 < strs.length := List.length_pos_iff.2 hne
      obtain ⟨m, rfl⟩ : ∃ m, n = m + 1 + 1 := ⟨n - 2, by omega⟩
      have hp := h3 (m + 1) (.rbrace :: rest) (by omega) (noStr_rbrace rest)
      have hkp := parse_pieces hne m (.colon :: (toks ++ .rbrace :: rest)) (noStr_colon _)
      rw [hfl] at hkp
      rw [List.append_assoc, List.cons_append]
      cases strs with
      | nil => exact absurd rfl hne
      | cons a l => exact parsePairs_last hkp hp
  | @entriesCons k ks g₁ g₂ v s g g' l t hk h₁ h₂ h hg hg' hl ih1 ih2 =>
    obtain ⟨toks, -, h2, h3⟩ := ih1
    obtain ⟨toks', h4, h5⟩ := ih2
    obtain ⟨strs, hne, hfl, hst⟩ := lexAll_pieces rnd hk
    refine ⟨strs.map .str ++ .colon :: (toks ++ .comma :: toks'), ?_, ?_⟩
    · intro d r hd hr
      have e : ks ++ (g₁ ++ ':' :: (g₂ ++ (s ++ (g ++ ',' :: (g' ++ t))))) ++ r =
        ks ++ (g₁ ++ ':' :: (g₂ ++ (s ++ (g ++ ',' :: (g' ++ (t ++ r)))))) := by simp
      rw [e, pairs_lex rnd hd (fun r hr => hst d r hd hr) h₁ h₂
        (h2 d _ (Or.inl hd) (gap_stops hg (stops_cons stop_comma _))), lexAll_gap rnd hd hg,
        lexAll_punct rnd d ',' .comma _ (by decide) rfl]
      show (Except.map _ (lexAll rnd d (g' ++ (t ++ r)))).map _ = _
      rw [lexAll_gap rnd hd hg', h4 d r hd hr]
      cases lexAll rnd d r <;> simp [Except.map]
    · intro n rest hn
      simp only [List.length_cons, List.length_append, List.length_map] at hn
      have hpos : 0 < strs.length := List.length_pos_iff.2 hne
      obtain ⟨m, rfl⟩ : ∃ m, n = m + 1 + 1 := ⟨n - 2, by omega⟩
      have hp := h3 (m + 1) (.comma :: (toks' ++ .rbrace :: rest)) (by omega) (noStr_comma _)
      have hkp := parse_pieces hne m (.colon :: (toks ++ .comma :: (toks' ++ .rbrace :: rest))) (noStr_colon _)
      rw [hfl] at hkp
      have e : strs.map PyTok.str ++ .colon :: (toks ++ .comma :: toks') ++ .rbrace :: rest =
        strs.map PyTok.str ++ .colon :: (toks ++ .comma :: (toks' ++ .rbrace :: rest)) := by simp
      rw [e]
      cases strs with
      | nil => exact absurd rfl hne
      | cons a l => exact parsePairs_comma hkp hp (h5 (m + 1) rest (by omega))

end MoonPIES
