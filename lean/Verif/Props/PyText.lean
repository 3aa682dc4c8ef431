import Verif.Lemmas.PyText
import Verif.Props.ConfigRound

/-!
# C95: the text of a configuration file
-/

namespace MoonPIES

open Spec

theorem dropLead_gap {g : Str} (hg : Gap g) (r : Str) : dropLead false (g ++ r) = dropLead false r := by
  induction hg with
  | nil => rfl
  | @blank c g hc _ ih =>
    rw [List.cons_append, dropLead, if_neg (by rcases hc with rfl | rfl | rfl <;> decide), if_pos hc, ih]
  | @comment t g ht _ ih =>
    rw [List.cons_append, dropLead, if_pos rfl, List.append_assoc]
    have : ∀ t : Str, '\n' ∉ t → dropLead true (t ++ ('\n' :: g ++ r)) = dropLead false (g ++ r) := by
      intro t
      induction t with
      | nil => intro _; simp [dropLead]
      | cons c t iht =>
        intro h
        rw [List.mem_cons, not_or] at h
        rw [List.cons_append, dropLead]
        have hc : (c != '\n') = true := by simpa using fun e => h.1 e.symm
        rw [hc, iht h.2]
    rw [this t ht, ih]

theorem gap_of_lead {a : Str} (h : Lead a) : Gap a := by
  rcases h with h | h
  · induction a with
    | nil => exact .nil
    | cons c a ih =>
      refine .blank ?_ (ih (fun x hx => h x (by simp [hx])))
      rcases h c (by simp) with h | h
      · exact Or.inl h
      · exact Or.inr (Or.inl h)
  · exact h.1

theorem dict_head (rnd : ℚ → FloatVal) {l : List (Str × PyLit)} {s : Str} (h : Writes rnd (.lit (.dict l)) s) :
    ∃ c s', s = c :: s' ∧ (c = '(' ∨ c = '{') := by
  cases h with
  | paren => exact ⟨_, _, rfl, Or.inl rfl⟩
  | dict => exact ⟨_, _, rfl, Or.inr rfl⟩

/-- **C95** every spelling of a dictionary is read back as this dictionary. -/
theorem C95_read (rnd : ℚ → FloatVal) (l : List (Str × PyLit)) (text : Str) (h : FileText rnd l text) :
    literalEval rnd text = .ok (.dict l) := by
  obtain ⟨a, s, b, rfl, ha, hs, hb, hz⟩ := h
  obtain ⟨c, s', rfl, hc⟩ := dict_head rnd hs
  obtain ⟨toks, -, h2, h3⟩ := writes_good rnd hs
  have hdrop : dropLead false (a ++ (c :: s' ++ b)) = c :: s' ++ b := by
    rw [dropLead_gap (gap_of_lead ha), List.cons_append, dropLead]
    rw [if_neg (by rcases hc with rfl | rfl <;> decide), if_neg (by rcases hc with rfl | rfl <;> decide)]
  have hst : Stops b := by
    rcases hb with hb | ⟨g, t, hg, -, rfl⟩
    · have := gap_stops hb (r := []) (by intro c r e; cases e)
      rwa [List.append_nil] at this
    · exact gap_stops hg (stops_cons (by simp [StopChar]) _)
  have hlex : lexText rnd (a ++ (c :: s' ++ b)).length 0 (dropLead false (a ++ (c :: s' ++ b))) = .ok toks := by
    rw [hdrop, lexText_eq_all _ _ _ _ (by simp), h2 0 b (Or.inr ⟨c, rfl, hc⟩) hst, lexAll_trail rnd hb]
    show Except.ok (toks ++ []) = _
    rw [List.append_nil]
  have hparse := h3 (2 * toks.length + 1) [] (by omega) (by intro s r e; cases e)
  rw [List.append_nil] at hparse
  unfold literalEval
  rw [if_neg hz]
  simp only [bind, Except.bind, hlex, hparse]

/-- **C95** a file with a second bracket after its dictionary is refused, whatever follows. -/
theorem C95_second (rnd : ℚ → FloatVal) (l : List (Str × PyLit)) (a s g u : Str) (c : Char) (ha : Lead a)
    (hs : Writes rnd (.lit (.dict l)) s) (hg : g ≠ []) (hb : ∀ x ∈ g, x = ' ' ∨ x = '\t')
    (hc : c = '{' ∨ c = '(' ∨ c = '[') (v : PyLit) :
    literalEval rnd (a ++ (s ++ (g ++ c :: u))) ≠ .ok v := by
  intro h
  obtain ⟨c0, s', rfl, hc0⟩ := dict_head rnd hs
  obtain ⟨toks, -, h2, h3⟩ := writes_good rnd hs
  have hdrop : dropLead false (a ++ (c0 :: s' ++ (g ++ c :: u))) = c0 :: s' ++ (g ++ c :: u) := by
    rw [dropLead_gap (gap_of_lead ha), List.cons_append, dropLead]
    rw [if_neg (by rcases hc0 with rfl | rfl <;> decide), if_neg (by rcases hc0 with rfl | rfl <;> decide)]
  have hst : Stops (g ++ c :: u) := by
    cases g with
    | nil => exact absurd rfl hg
    | cons x g' =>
      refine stops_cons ?_ _
      rcases hb x (by simp) with rfl | rfl <;> simp [StopChar]
  have hblank : ∀ g : Str, (∀ x ∈ g, x = ' ' ∨ x = '\t') → lexAll rnd 0 (g ++ c :: u) = lexAll rnd 0 (c :: u) := by
    intro g
    induction g with
    | nil => intro _; rfl
    | cons x g ih =>
      intro hx
      rw [List.cons_append, lexAll_blank rnd 0 (hx x (by simp)), ih (fun y hy => hx y (by simp [hy]))]
  obtain ⟨t, ht, hts, hmem⟩ : ∃ t, punct c = some t ∧ (∀ w, t ≠ .str w) ∧ c ∈ "{}()[],:-+".toList := by
    rcases hc with rfl | rfl | rfl
    · exact ⟨.lbrace, rfl, by simp, by decide⟩
    · exact ⟨.lpar, rfl, by simp, by decide⟩
    · exact ⟨.lbrack, rfl, by simp, by decide⟩
  unfold literalEval at h
  split_ifs at h with hz
  rw [hdrop, lexText_eq_all _ _ _ _ (by simp), h2 0 _ (Or.inr ⟨c0, rfl, hc0⟩) hst, hblank g hb,
    lexAll_punct rnd 0 c t u hmem ht] at h
  cases hl : lexAll rnd (depthAfter 0 t) u with
  | error e => rw [hl] at h; cases h
  | ok ts =>
    rw [hl] at h
    have hparse := h3 (2 * (toks ++ t :: ts).length + 1) (t :: ts) (by simp; omega) (by
      intro w r e
      injection e with e _
      exact hts w e)
    simp only [Except.map, bind, Except.bind, hparse] at h
    cases h

/-- Two dictionaries in one file. -/
example (v : PyLit) : literalEval FloatVal.fin "{} {}".toList ≠ .ok v :=
  C95_second FloatVal.fin [] [] "{}".toList [' '] ['}'] '{' (Or.inl (by simp))
    (.dict (l := []) (g := []) (t := []) List.nodup_nil .nil .entriesNil) (by simp) (by simp) (Or.inl rfl) v

/-- **C95** a text spells at most one dictionary. -/
theorem C95_unique (rnd : ℚ → FloatVal) (l l' : List (Str × PyLit)) (text : Str) (h : FileText rnd l text)
    (h' : FileText rnd l' text) : l = l' := by
  have := (C95_read rnd l text h).symm.trans (C95_read rnd l' text h')
  simpa using this

/-! ## Configurations -/

/-- A scalar as a literal. -/
def Spec.atomLit : Atom → PyLit
  | .none => .none
  | .bool b => .bool b
  | .int n => .int n
  | .float q => .float (.fin q)
  | .str s => .str s

/-- A value of a configuration as a literal. -/
def Spec.litOf : PyVal → PyLit
  | .none => .none
  | .bool b => .bool b
  | .int n => .int n
  | .float q => .float (.fin q)
  | .inf b => .float (.inf b)
  | .nan => .float .nan
  | .str s => .str s
  | .tuple l => .tuple (l.map atomLit)
  | .list l => .list (l.map atomLit)
  | .dict l => .dict (l.map (fun p => (p.1, .tuple (p.2.map atomLit))))

/-- A file that holds the given options. -/
def Spec.CfgFile (rnd : ℚ → FloatVal) (d : List (String × PyVal)) (text : Str) : Prop :=
  FileText rnd (d.map (fun kv => (kv.1.toList, litOf kv.2))) text

theorem mapM_atoms (l : List Atom) : (l.map atomLit).mapM PyLit.toAtom = some l := by
  induction l with
  | nil => rfl
  | cons a l ih =>
    rw [List.map_cons, List.mapM_cons, ih]
    cases a <;> rfl

theorem toVal_litOf (v : PyVal) : (litOf v).toVal = some v := by
  cases v with
  | tuple l => simp only [litOf, PyLit.toVal, mapM_atoms]; rfl
  | list l => simp only [litOf, PyLit.toVal, mapM_atoms]; rfl
  | dict l =>
    simp only [litOf, PyLit.toVal]
    have : (l.map (fun p => (p.1, PyLit.tuple (p.2.map atomLit)))).mapM
        (fun p : Str × PyLit => (p.2.toAtoms).map (fun a => (p.1, a))) = some l := by
      induction l with
      | nil => rfl
      | cons p l ih =>
        rw [List.map_cons, List.mapM_cons, ih]
        simp only [PyLit.toAtoms, mapM_atoms]
        rfl
    rw [this]; rfl
  | _ => rfl

/-- **C95** reading a configuration file gives the configuration of the options it spells, however
they are laid out. -/
theorem C95_config (rnd : ℚ → FloatVal) (env : Env) (d : List (String × PyVal)) (text : Str)
    (seed : Option Int) (h : CfgFile rnd d text) :
    readCfgText rnd env text seed = readCustomCfg env (some d) seed := by
  unfold readCfgText
  rw [C95_read rnd _ text h]
  have : (d.map (fun kv => (kv.1.toList, litOf kv.2))).mapM
      (fun p : Str × PyLit => p.2.toVal.map (fun v => (String.ofList p.1, v))) = some d := by
    clear h
    induction d with
    | nil => rfl
    | cons kv d ih =>
      rw [List.map_cons, List.mapM_cons, ih]
      simp only [toVal_litOf, Option.map_some, String.ofList_toList]
      rfl
  simp only [bind, Except.bind, this]

/-- **C95** the saved file of a run gives its parameters back: every field that is not recomputed,
and the seed. -/
theorem C95_saved (rnd : ℚ → FloatVal) (env env' : Env) (kw : List (String × PyVal)) (c : CfgVals)
    (h : makeCfg env kw = .ok c) (hdraw : 1 ≤ env.draw ∧ env.draw ≤ 99998) (text : Str)
    (ht : CfgFile rnd (toDict c) text) :
    ∃ c', readCfgText rnd env' text none = .ok c' ∧
      (∀ d ∈ cfgFields, ¬ Recomputed d.name → c' d.name = c d.name) ∧ c' "seed" = c "seed" := by
  rw [C95_config rnd env' (toDict c) text none ht]
  exact C56_round_trip_partial env env' kw c h hdraw

/-! ## Every configuration of finite numbers has such a file -/

/-- The float is what some decimal rounds to (the reason why `repr` exists). -/
def Spec.Decimal (rnd : ℚ → FloatVal) (q : ℚ) : Prop :=
  ∃ (m : Nat) (k : Int), rnd ((m : ℚ) * (10 : ℚ) ^ k) = .fin |q|

/-- The scalar can be written. -/
def Spec.AtomOk (rnd : ℚ → FloatVal) : Atom → Prop
  | .float q => Decimal rnd q
  | _ => True

/-- The value can be written: no infinity, no NaN. -/
def Spec.ValOk (rnd : ℚ → FloatVal) : PyVal → Prop
  | .float q => Decimal rnd q
  | .inf _ => False
  | .nan => False
  | .tuple l => ∀ a ∈ l, AtomOk rnd a
  | .list l => ∀ a ∈ l, AtomOk rnd a
  | .dict l => (l.map (·.1)).Nodup ∧ ∀ p ∈ l, ∀ a ∈ p.2, AtomOk rnd a
  | _ => True

theorem digitNum_snoc (ds : List (Fin 10)) (d : Fin 10) : digitNum (ds ++ [d]) = 10 * digitNum ds + d.val := by
  induction ds with
  | nil => simp [digitNum]
  | cons a ds ih =>
    rw [List.cons_append, digitNum, ih, digitNum, List.length_append, List.length_singleton, pow_succ]
    ring

theorem nat_digits (n : Nat) : ∃ ds, ds ≠ [] ∧ digitNum ds = n ∧ (ds.head? = some 0 → ∀ d ∈ ds, d = 0) := by
  induction n using Nat.strong_induction_on with
  | _ n ih =>
    by_cases h : n < 10
    · refine ⟨[⟨n, h⟩], by simp, by simp [digitNum], ?_⟩
      intro h0 d hd
      simp at h0 hd
      subst h0; exact hd
    · obtain ⟨ds, hne, hn, h0⟩ := ih (n / 10) (by omega)
      refine ⟨ds ++ [⟨n % 10, Nat.mod_lt _ (by norm_num)⟩], by simp, ?_, ?_⟩
      · rw [digitNum_snoc, hn]; simp only []; omega
      · intro hh
        exfalso
        cases ds with
        | nil => exact hne rfl
        | cons a ds =>
          simp at hh
          have hz := h0 (by simp [hh])
          have : ∀ l : List (Fin 10), (∀ d ∈ l, d = 0) → digitNum l = 0 := by
            intro l
            induction l with
            | nil => intro _; rfl
            | cons b l ihl =>
              intro hb
              rw [digitNum, ihl (fun d hd => hb d (by simp [hd])), hb b (by simp)]
              simp
          rw [this _ hz] at hn
          omega

theorem nul_digits (ds : List (Fin 10)) : '\x00' ∉ digitText ds := by
  unfold digitText
  rw [List.mem_map]
  rintro ⟨d, -, h⟩
  revert d
  decide

theorem natText_exists (n : Nat) : ∃ s, NatText n s ∧ '\x00' ∉ s := by
  obtain ⟨ds, hne, hn, h0⟩ := nat_digits n
  exact ⟨digitText ds, ⟨ds, hne, rfl, hn, h0⟩, nul_digits ds⟩

theorem decText_exists (m : Nat) (k : Int) : ∃ s, DecText ((m : ℚ) * (10 : ℚ) ^ k) s ∧ '\x00' ∉ s := by
  obtain ⟨ds, hne, hn, -⟩ := nat_digits m
  obtain ⟨es, he, hes, hz⟩ : ∃ es, ExpText k es ∧ es ≠ [] ∧ '\x00' ∉ es := by
    obtain ⟨ks, hk, hkn, -⟩ := nat_digits k.natAbs
    rcases Int.natAbs_eq k with h | h
    · refine ⟨'e' :: digitText ks, ?_, by simp, ?_⟩
      · rw [h, ← hkn]; exact .plain 'e' ks (Or.inl rfl) hk
      · rw [List.mem_cons, not_or]; exact ⟨by decide, nul_digits ks⟩
    · refine ⟨'e' :: '-' :: digitText ks, ?_, by simp, ?_⟩
      · rw [h, ← hkn]; exact .minus 'e' ks (Or.inl rfl) hk
      · rw [List.mem_cons, not_or, List.mem_cons, not_or]; exact ⟨by decide, by decide, nul_digits ks⟩
  refine ⟨digitText ds ++ es, ?_, ?_⟩
  · rw [← hn]; exact .exp ds k es hne hes he
  · rw [List.mem_append, not_or]; exact ⟨nul_digits ds, hz⟩

theorem nul_hex (k : Nat) : ∀ n, n < 16 ^ k → '\x00' ∉ hexText k n := by
  induction k with
  | zero => intro n _; simp [hexText]
  | succ k ih =>
    intro n hn
    rw [hexText, List.mem_cons, not_or]
    refine ⟨?_, ih _ (Nat.mod_lt _ (by positivity))⟩
    have : n / 16 ^ k < 16 := by
      rw [Nat.div_lt_iff_lt_mul (by positivity), ← pow_succ']; exact hn
    revert this
    generalize n / 16 ^ k = x
    revert x
    decide

theorem pieces_exists (s : Str) : ∃ t, PiecesText s t ∧ '\x00' ∉ t := by
  obtain ⟨u, hu, hz⟩ : ∃ u, BodyText '\'' s u ∧ '\x00' ∉ u := by
    induction s with
    | nil => exact ⟨[], .nil, by simp⟩
    | cons c s ih =>
      obtain ⟨u, hu, hz⟩ := ih
      refine ⟨_, .cons (.hex8 c) hu, ?_⟩
      rw [List.mem_append, not_or, List.mem_cons, not_or, List.mem_cons, not_or]
      exact ⟨⟨by decide, by decide, nul_hex 8 _ (char_lt c)⟩, hz⟩
  refine ⟨_, .one (.mk (Or.inl rfl) hu), ?_⟩
  rw [List.mem_cons, not_or, List.mem_append, not_or]
  exact ⟨by decide, hz, by decide⟩

/-- The literal has a spelling. -/
def HasText (rnd : ℚ → FloatVal) (p : LitPart) : Prop := ∃ s, Writes rnd p s ∧ '\x00' ∉ s

theorem int_text (rnd : ℚ → FloatVal) (n : Int) : HasText rnd (.lit (.int n)) := by
  obtain ⟨s, hs, hz⟩ := natText_exists n.natAbs
  rcases Int.natAbs_eq n with h | h
  · rw [h]; exact ⟨s, .int hs, hz⟩
  · rw [h]; exact ⟨'-' :: s, .negInt hs, by rw [List.mem_cons, not_or]; exact ⟨by decide, hz⟩⟩

theorem float_text (rnd : ℚ → FloatVal) (q : ℚ) (h : Decimal rnd q) : HasText rnd (.lit (.float (.fin q))) := by
  obtain ⟨m, k, hq⟩ := h
  obtain ⟨s, hs, hz⟩ := decText_exists m k
  rcases le_total 0 q with h | h
  · rw [abs_of_nonneg h] at hq
    rw [← hq]; exact ⟨s, .float hs, hz⟩
  · rw [abs_of_nonpos h] at hq
    refine ⟨'-' :: s, ?_, by rw [List.mem_cons, not_or]; exact ⟨by decide, hz⟩⟩
    have := Writes.negFloat (rnd := rnd) hs hq
    rwa [neg_neg] at this

theorem atom_text (rnd : ℚ → FloatVal) (a : Atom) (h : AtomOk rnd a) : HasText rnd (.lit (atomLit a)) := by
  cases a with
  | none => exact ⟨_, .none, by decide⟩
  | bool b => cases b <;> [exact ⟨_, .false, by decide⟩; exact ⟨_, .true, by decide⟩]
  | int n => exact int_text rnd n
  | float q => exact float_text rnd q h
  | str s => obtain ⟨t, ht, hz⟩ := pieces_exists s; exact ⟨t, .str ht, hz⟩

theorem items_text (rnd : ℚ → FloatVal) (l : List Atom) (h : ∀ a ∈ l, AtomOk rnd a) :
    HasText rnd (.items (l.map atomLit)) := by
  induction l with
  | nil => exact ⟨_, .itemsNil, by simp⟩
  | cons a l ih =>
    obtain ⟨s, hs, hz⟩ := atom_text rnd a (h a (by simp))
    obtain ⟨t, ht, hz'⟩ := ih (fun b hb => h b (by simp [hb]))
    refine ⟨_, .itemsCons hs .nil .nil ht, ?_⟩
    simp only [List.mem_append, List.mem_cons, not_or, List.nil_append]
    exact ⟨hz, by decide, hz'⟩

theorem tuple_text (rnd : ℚ → FloatVal) (l : List Atom) (h : ∀ a ∈ l, AtomOk rnd a) :
    HasText rnd (.lit (.tuple (l.map atomLit))) := by
  by_cases h1 : l.length = 1
  · obtain ⟨a, rfl⟩ := List.length_eq_one_iff.mp h1
    obtain ⟨s, hs, hz⟩ := atom_text rnd a (h a (by simp))
    refine ⟨_, .single .nil hs .nil .nil, ?_⟩
    simp only [List.mem_append, List.mem_cons, not_or, List.nil_append]
    exact ⟨by decide, hz, by decide, by decide, by simp⟩
  · obtain ⟨s, hs, hz⟩ := items_text rnd l h
    refine ⟨_, .tuple (by simpa using h1) .nil hs, ?_⟩
    simp only [List.mem_append, List.mem_cons, not_or, List.nil_append]
    exact ⟨by decide, hz, by decide, by simp⟩

theorem entries_text (rnd : ℚ → FloatVal) (l : List (Str × PyLit)) (h : ∀ p ∈ l, HasText rnd (.lit p.2)) :
    HasText rnd (.entries l) := by
  induction l with
  | nil => exact ⟨_, .entriesNil, by simp⟩
  | cons p l ih =>
    obtain ⟨s, hs, hz⟩ := h p (by simp)
    obtain ⟨t, ht, hz'⟩ := ih (fun b hb => h b (by simp [hb]))
    obtain ⟨ks, hk, hz''⟩ := pieces_exists p.1
    refine ⟨_, .entriesCons hk .nil .nil hs .nil .nil ht, ?_⟩
    simp only [List.mem_append, List.mem_cons, not_or, List.nil_append]
    exact ⟨hz'', by decide, hz, by decide, hz'⟩

theorem dict_text (rnd : ℚ → FloatVal) (l : List (Str × PyLit)) (hk : (l.map (·.1)).Nodup)
    (h : ∀ p ∈ l, HasText rnd (.lit p.2)) : HasText rnd (.lit (.dict l)) := by
  obtain ⟨t, ht, hz⟩ := entries_text rnd l h
  refine ⟨_, .dict hk .nil ht, ?_⟩
  simp only [List.mem_append, List.mem_cons, not_or, List.nil_append]
  exact ⟨by decide, hz, by decide, by simp⟩

theorem val_text (rnd : ℚ → FloatVal) (v : PyVal) (h : ValOk rnd v) : HasText rnd (.lit (litOf v)) := by
  cases v with
  | none => exact ⟨_, .none, by decide⟩
  | bool b => cases b <;> [exact ⟨_, .false, by decide⟩; exact ⟨_, .true, by decide⟩]
  | int n => exact int_text rnd n
  | float q => exact float_text rnd q h
  | inf b => exact h.elim
  | nan => exact h.elim
  | str s => obtain ⟨t, ht, hz⟩ := pieces_exists s; exact ⟨t, .str ht, hz⟩
  | tuple l => exact tuple_text rnd l h
  | list l =>
    obtain ⟨s, hs, hz⟩ := items_text rnd l h
    refine ⟨_, .list .nil hs, ?_⟩
    simp only [List.mem_append, List.mem_cons, not_or, List.nil_append]
    exact ⟨by decide, hz, by decide, by simp⟩
  | dict l =>
    refine dict_text rnd _ ?_ ?_
    · rw [List.map_map]; exact h.1
    · intro p hp
      obtain ⟨p', hp', rfl⟩ := List.mem_map.mp hp
      exact tuple_text rnd _ (h.2 p' hp')

/-- **C95** every set of options without infinities and NaNs can be kept in a file. -/
theorem C95_writable (rnd : ℚ → FloatVal) (d : List (String × PyVal)) (hk : (d.map (·.1)).Nodup)
    (h : ∀ kv ∈ d, ValOk rnd kv.2) : ∃ text, CfgFile rnd d text := by
  obtain ⟨s, hs, hz⟩ := dict_text rnd (d.map (fun kv => (kv.1.toList, litOf kv.2)))
    (by
      rw [List.map_map]
      have : d.map ((fun x : Str × PyLit => x.1) ∘ fun kv => (kv.1.toList, litOf kv.2)) =
          (d.map (·.1)).map String.toList := by rw [List.map_map]; rfl
      rw [this]
      exact hk.map (fun a b e => String.toList_inj.mp e))
    (by
      intro p hp
      obtain ⟨kv, hkv, rfl⟩ := List.mem_map.mp hp
      exact val_text rnd _ (h kv hkv))
  exact ⟨s, [], s, [], by simp, Or.inl (by simp), hs, Or.inl .nil, hz⟩

/-! ## Infinities and NaNs -/

/-- The words that denote values. -/
def okTok : PyTok → Prop
  | .word w => w ∈ ["None".toList, "True".toList, "False".toList]
  | _ => True

theorem joinStrs_split : ∀ (r : List PyTok) (s : Str), ∃ u, r = u ++ (joinStrs s r).2 ∧ ∀ t ∈ u, okTok t := by
  intro r
  induction r with
  | nil => intro s; exact ⟨[], rfl, by simp⟩
  | cons t r ih =>
    intro s
    cases t with
    | str s' =>
      obtain ⟨u, hu, ht⟩ := ih (s ++ s')
      refine ⟨.str s' :: u, ?_, ?_⟩
      · rw [List.cons_append]; exact congrArg _ hu
      · intro t h
        rcases List.mem_cons.mp h with rfl | h
        · trivial
        · exact ht t h
    | _ => exact ⟨[], rfl, by simp⟩

/-- What is consumed is fine. -/
def Eats (toks rest : List PyTok) : Prop := ∃ u, toks = u ++ rest ∧ ∀ t ∈ u, okTok t

theorem Eats.refl (r : List PyTok) : Eats r r := ⟨[], rfl, by simp⟩

theorem Eats.cons {t : PyTok} {r rest : List PyTok} (ht : okTok t) (h : Eats r rest) : Eats (t :: r) rest := by
  obtain ⟨u, rfl, hu⟩ := h
  refine ⟨t :: u, rfl, ?_⟩
  intro x hx
  rcases List.mem_cons.mp hx with rfl | hx
  · exact ht
  · exact hu x hx

theorem Eats.trans {a b c : List PyTok} (h : Eats a b) (h' : Eats b c) : Eats a c := by
  obtain ⟨u, rfl, hu⟩ := h
  obtain ⟨v, rfl, hv⟩ := h'
  refine ⟨u ++ v, by rw [List.append_assoc], ?_⟩
  intro t ht
  rcases List.mem_append.mp ht with h | h
  · exact hu t h
  · exact hv t h

theorem closer_ok {k : Closer} {t : PyTok} (h : k.is t = true) : okTok t := by
  cases t <;> first | trivial | (cases k <;> cases h)

theorem parse_eats (n : Nat) :
    (∀ toks v r, parseLit n toks = .ok (v, r) → Eats toks r) ∧
    (∀ k toks l b r, parseSeq n k toks = .ok (l, b, r) → Eats toks r) ∧
    (∀ toks l r, parsePairs n toks = .ok (l, r) → Eats toks r) := by
  induction n with
  | zero =>
    refine ⟨?_, ?_, ?_⟩
    · intro toks v r h; simp [parseLit] at h
    · intro k toks l b r h; simp [parseSeq] at h
    · intro toks l r h; simp [parsePairs] at h
  | succ n ih =>
    obtain ⟨ihL, ihS, ihP⟩ := ih
    refine ⟨?_, ?_, ?_⟩
    · intro toks v r h
      unfold parseLit at h
      split at h
      · simp at *
      · injection h with h; injection h with _ h; subst h
        exact .cons trivial (joinStrs_split _ _)
      · injection h with h; injection h with _ h; subst h
        exact .cons trivial (.refl _)
      · injection h with h; injection h with _ h; subst h
        exact .cons trivial (.refl _)
      · injection h with h; injection h with _ h; subst h
        exact .cons trivial (.cons trivial (.refl _))
      · injection h with h; injection h with _ h; subst h
        exact .cons trivial (.cons trivial (.refl _))
      · injection h with h; injection h with _ h; subst h
        exact .cons trivial (.cons trivial (.refl _))
      · injection h with h; injection h with _ h; subst h
        exact .cons trivial (.cons trivial (.refl _))
      · rename_i m w r' he
        have : okTok (.word w) ∧ r' = r := by
          show w ∈ _ ∧ _
          split_ifs at h with h1 h2 h3
          · injection h with h; injection h with _ h; exact ⟨by simp [h1], h⟩
          · injection h with h; injection h with _ h; exact ⟨by simp [h2], h⟩
          · injection h with h; injection h with _ h; exact ⟨by simp [h3], h⟩
        obtain ⟨h1, rfl⟩ := this
        exact .cons h1 (.refl _)
      · rename_i m r' he
        obtain rfl : n = m := by simpa using he
        simp only [bind, Except.bind] at h
        split at h
        · simp at h
        · rename_i p hp
          obtain ⟨l, b, r2⟩ := p
          have := ihS _ _ _ _ _ (by simpa using hp)
          simp only [] at h
          have hr : r2 = r := by
            split at h <;> (injection h with h; injection h with _ h)
          subst hr
          exact .cons trivial this
      · rename_i m r' he
        obtain rfl : n = m := by simpa using he
        simp only [bind, Except.bind] at h
        split at h
        · simp at h
        · rename_i p hp
          obtain ⟨l, b, r2⟩ := p
          have := ihS _ _ _ _ _ (by simpa using hp)
          injection h with h; injection h with _ h; subst h
          exact .cons trivial this
      · rename_i m r' he
        obtain rfl : n = m := by simpa using he
        simp only [bind, Except.bind] at h
        split at h
        · simp at h
        · rename_i p hp
          obtain ⟨l, r2⟩ := p
          have := ihP _ _ _ (by simpa using hp)
          injection h with h; injection h with _ h; subst h
          exact .cons trivial this
      · simp at h
    · intro k toks l b r h
      cases toks with
      | nil => simp [parseSeq] at h
      | cons t r0 =>
        rw [parseSeq] at h
        split_ifs at h with hk
        · injection h with h; injection h with _ h; injection h with _ h; subst h
          exact .cons (closer_ok hk) (.refl _)
        · simp only [bind, Except.bind] at h
          split at h
          · simp at h
          · rename_i p hp
            obtain ⟨v, r'⟩ := p
            refine (ihL _ _ _ hp).trans ?_
            simp only [] at h
            split at h
            · split at h
              · simp at h
              · rename_i p hp
                obtain ⟨l', b', r3⟩ := p
                have := ihS _ _ _ _ _ hp
                injection h with h; injection h with _ h; injection h with _ h; subst h
                exact .cons trivial this
            · split_ifs at h with hk'
              injection h with h; injection h with _ h; injection h with _ h; subst h
              exact .cons (closer_ok hk') (.refl _)
            · simp at h
    · intro toks l r h
      unfold parsePairs at h
      split at h
      · simp at *
      · injection h with h; injection h with _ h; subst h
        exact .cons trivial (.refl _)
      · rename_i m he hts
        obtain rfl : n = m := by simpa using he
        simp only [bind, Except.bind] at h
        split at h
        · simp at h
        · rename_i p hp
          obtain ⟨k, r1⟩ := p
          simp only [] at h
          split at h
          · split at h
            · simp at h
            · rename_i p' hp'
              obtain ⟨v, r2⟩ := p'
              simp only [] at h
              split at h
              · split at h
                · simp at h
                · rename_i p3 hp3
                  obtain ⟨l', r4⟩ := p3
                  injection h with h; injection h with _ h; subst h
                  exact (ihL _ _ _ hp).trans (.cons trivial ((ihL _ _ _ hp').trans (.cons trivial (ihP _ _ _ hp3))))
              · injection h with h; injection h with _ h; subst h
                exact (ihL _ _ _ hp).trans (.cons trivial ((ihL _ _ _ hp').trans (.cons trivial (.refl _))))
              · simp at h
          · simp at h

theorem literalEval_words (rnd : ℚ → FloatVal) (text : Str) (v : PyLit) (h : literalEval rnd text = .ok v) :
    ∃ toks, lexText rnd text.length 0 (dropLead false text) = .ok toks ∧ ∀ t ∈ toks, okTok t := by
  unfold literalEval at h
  split_ifs at h with hz
  simp only [bind, Except.bind] at h
  split at h
  · simp at h
  · rename_i toks hl
    refine ⟨toks, hl, ?_⟩
    split at h
    · simp at h
    · rename_i p hp
      obtain ⟨w, r⟩ := p
      obtain ⟨u, hu, hok⟩ := (parse_eats _).1 _ _ _ hp
      simp only [] at h
      split at h
      · rw [List.append_nil] at hu; subst hu; exact hok
      · simp at h

/-- If the text has tokens, then the word is among them. -/
def Word (w : Str) (x : Except PyErr (List PyTok)) : Prop := ∀ toks, x = .ok toks → .word w ∈ toks

theorem Word.app {w : Str} {x : Except PyErr (List PyTok)} (u : List PyTok) (h : Word w x) : Word w (x.map (u ++ ·)) := by
  intro toks e
  cases x with
  | error _ => cases e
  | ok t => cases e; exact List.mem_append_right _ (h t rfl)

theorem Word.tok {w : Str} {x : Except PyErr (List PyTok)} (t : PyTok) (h : Word w x) : Word w (x.map (t :: ·)) :=
  h.app [t]

/-- The entries before the one in question. -/
def Spec.Before (rnd : ℚ → FloatVal) (pre : Str) : Prop :=
  pre = [] ∨ ∃ l t g, Writes rnd (.entries l) t ∧ Gap g ∧ pre = t ++ ',' :: g

/-- A file in which the option `k` is an infinity or a NaN, the way Python prints these values
(`inf`, `-inf`, `nan`), whatever stands before and after it. -/
def Spec.Nonfinite (rnd : ℚ → FloatVal) (k text : Str) : Prop :=
  ∃ a g pre ks g₁ g₂ sign w post, text = a ++ ('{' :: (g ++ (pre ++ (ks ++ (g₁ ++ ':' :: (g₂ ++ (sign ++ (w ++ post)))))))) ∧
    Lead a ∧ Gap g ∧ Before rnd pre ∧ PiecesText k ks ∧ Gap g₁ ∧ Gap g₂ ∧ (sign = [] ∨ sign = ['-']) ∧
    (w = "inf".toList ∨ w = "nan".toList) ∧ ∀ c ∈ post.head?, c ∈ " \t\n#,}".toList

theorem nonfinite_fails (rnd : ℚ → FloatVal) (k text : Str) (htext : Nonfinite rnd k text) (v : PyLit) :
    literalEval rnd text ≠ .ok v := by
  obtain ⟨a, g, pre, ks, g₁, g₂, sign, w, post, rfl, ha, hg, hpre, hk, h₁, h₂, hs, hw, hpost⟩ := htext
  intro h
  obtain ⟨toks, hl, hok⟩ := literalEval_words rnd _ _ h
  rw [dropLead_gap (gap_of_lead ha)] at hl
  rw [show ∀ x, dropLead false ('{' :: x) = '{' :: x from fun x => rfl, lexText_eq_all _ _ _ _ (by simp)] at hl
  have hst : Stops post := by
    rintro c r rfl
    have : ∀ c ∈ " \t\n#,}".toList, StopChar c := by
      intro c hc
      simp only [StopChar]
      revert c
      decide +kernel
    exact this c (hpost c rfl)
  have h1 : Word w (lexAll rnd 1 (w ++ post)) := by
    rw [lexAll_word rnd 1 w (by rcases hw with rfl | rfl <;> decide +kernel) post hst]
    intro toks e
    cases hx : lexAll rnd 1 post with
    | error _ => rw [hx] at e; cases e
    | ok t => rw [hx] at e; cases e; simp
  have h2 : Word w (lexAll rnd 1 (sign ++ (w ++ post))) := by
    rcases hs with rfl | rfl
    · exact h1
    · rw [List.singleton_append, lexAll_punct rnd 1 '-' .minus _ (by decide) rfl]
      exact h1.tok _
  have h3 : Word w (lexAll rnd 1 (ks ++ (g₁ ++ ':' :: (g₂ ++ (sign ++ (w ++ post)))))) := by
    obtain ⟨strs, -, -, hks⟩ := lexAll_pieces rnd hk
    rw [hks 1 _ (by decide) (gap_stops h₁ (stops_cons stop_colon _)), lexAll_gap rnd (by decide) h₁,
      lexAll_punct rnd 1 ':' .colon _ (by decide) rfl]
    refine Word.app _ (Word.tok _ ?_)
    show Word w (lexAll rnd 1 _)
    rw [lexAll_gap rnd (by decide) h₂]
    exact h2
  have h4 : Word w (lexAll rnd 1 (pre ++ (ks ++ (g₁ ++ ':' :: (g₂ ++ (sign ++ (w ++ post))))))) := by
    rcases hpre with rfl | ⟨l, t, g', ht, hg', rfl⟩
    · exact h3
    · obtain ⟨tt, htt, -⟩ := writes_good rnd ht
      rw [List.append_assoc, List.cons_append, htt 1 _ (by decide) (stops_cons stop_comma _),
        lexAll_punct rnd 1 ',' .comma _ (by decide) rfl]
      refine Word.app _ (Word.tok _ ?_)
      show Word w (lexAll rnd 1 _)
      rw [lexAll_gap rnd (by decide) hg']
      exact h3
  have h5 : Word w (lexAll rnd 0 ('{' :: (g ++ (pre ++ (ks ++ (g₁ ++ ':' :: (g₂ ++ (sign ++ (w ++ post))))))))) := by
    rw [lexAll_punct rnd 0 '{' .lbrace _ (by decide) rfl]
    refine Word.tok _ ?_
    show Word w (lexAll rnd 1 _)
    rw [lexAll_gap rnd (by decide) hg]
    exact h4
  have h6 := hok _ (h5 _ hl)
  rcases hw with rfl | rfl
  · exact absurd h6 (by unfold okTok; decide +kernel)
  · exact absurd h6 (by unfold okTok; decide +kernel)

/-- **C95** a file in which an option is an infinity or a NaN, written the way Python prints it,
cannot be read, whatever stands before and after it. -/
theorem C95_nonfinite (rnd : ℚ → FloatVal) (k text : Str) (htext : Nonfinite rnd k text) (env : Env)
    (seed : Option Int) : (∀ v, literalEval rnd text ≠ .ok v) ∧ ∀ c, readCfgText rnd env text seed ≠ .ok c := by
  have main : ∀ v, literalEval rnd text ≠ .ok v := nonfinite_fails rnd k text htext
  refine ⟨main, ?_⟩
  intro c h
  unfold readCfgText at h
  cases hv : literalEval rnd text with
  | error e => rw [hv] at h; simp only [bind, Except.bind] at h; cases h
  | ok v => exact main v hv

/-- **C95** so not every accepted configuration comes back from the file of its run: an infinite
parameter is accepted, and no printed file with it can be read. -/
theorem C95_saved_refuted (rnd : ℚ → FloatVal) : ∃ (env : Env) (c : CfgVals),
    makeCfg env [("seed", .int 1), ("impact_speed_mean", .inf false)] = .ok c ∧ c "impact_speed_mean" = .inf false ∧
    ∀ text, Nonfinite rnd "impact_speed_mean".toList text → ∀ env' seed c',
      readCfgText rnd env' text seed ≠ .ok c' := by
  have h : ∃ c, makeCfg env0 [("seed", .int 1), ("impact_speed_mean", .inf false)] = .ok c ∧
      c "impact_speed_mean" = .inf false := by
    have h : (makeCfg env0 [("seed", .int 1), ("impact_speed_mean", .inf false)]).map (fun c => c "impact_speed_mean") =
        .ok (.inf false) := by decide +kernel
    cases hc : makeCfg env0 [("seed", .int 1), ("impact_speed_mean", .inf false)] with
    | error e => rw [hc] at h; cases h
    | ok c => rw [hc] at h; injection h with h; exact ⟨c, rfl, h⟩
  obtain ⟨c, h1, h2⟩ := h
  exact ⟨env0, c, h1, h2, fun text ht env' seed c' => (C95_nonfinite rnd _ text ht env' seed).2 c'⟩

/-! ## Examples -/

/-- A printed dictionary with a comment, a decimal, a tuple of one item and a string in two pieces. -/
example : FileText FloatVal.fin [("a".toList, .int (-12)), ("b".toList, .float (.fin (3 / 2))),
      ("c".toList, .tuple [.str "xy".toList])]
    "{'a': -12, # one\n 'b': 15e-1,\n 'c': ('x' \"y\",)}\n".toList := by
  refine ⟨[], "{'a': -12, # one\n 'b': 15e-1,\n 'c': ('x' \"y\",)}".toList, "\n".toList, by decide +kernel,
    Or.inl (by simp), ?_, Or.inl (.blank (c := '\n') (by simp) .nil), by decide +kernel⟩
  have q : ∀ (Q c : Char), (Q = '\'' ∨ Q = '"') → c ≠ Q → c ≠ '\\' → c ≠ '\n' → QuoteText [c] [Q, c, Q] :=
    fun Q c hQ h1 h2 h3 => .mk hQ (.cons (.plain c ⟨h1, h2, h3⟩) .nil)
  have k : ∀ c : Char, c ≠ '\'' → c ≠ '\\' → c ≠ '\n' → PiecesText [c] ['\'', c, '\''] :=
    fun c h1 h2 h3 => .one (q '\'' c (Or.inl rfl) h1 h2 h3)
  have g : Gap [' '] := .blank (by simp) .nil
  have gn : Gap ['\n', ' '] := .blank (by simp) g
  have gc : Gap (' ' :: '#' :: (" one".toList ++ '\n' :: [' '])) := .blank (by simp) (.comment (by decide +kernel) g)
  have n12 : NatText 12 "12".toList := ⟨[1, 2], by simp, by decide +kernel, by decide, by decide⟩
  have d15 : DecText (3 / 2) "15e-1".toList := by
    have := DecText.exp [1, 5] (-1) "e-1".toList (by simp) (by decide +kernel) (ExpText.minus 'e' [1] (Or.inl rfl) (by simp))
    have e : ((digitNum [1, 5] : Nat) : ℚ) * (10 : ℚ) ^ (-1 : Int) = 3 / 2 := by
      rw [show digitNum [1, 5] = 15 from rfl]; norm_num
    rw [e] at this
    exact this
  have xy : PiecesText "xy".toList "'x' \"y\"".toList :=
    .cons (q '\'' 'x' (Or.inl rfl) (by decide) (by decide) (by decide)) g (by simp)
      (.one (q '"' 'y' (Or.inr rfl) (by decide) (by decide) (by decide)))
  exact .dict (by decide +kernel) .nil (.entriesCons (k 'a' (by decide) (by decide) (by decide)) .nil g (.negInt n12) .nil gc
    (.entriesCons (k 'b' (by decide) (by decide) (by decide)) .nil g (.float d15) .nil gn
      (.entriesOne (k 'c' (by decide) (by decide) (by decide)) .nil g (.single .nil (.str xy) .nil .nil) .nil)))

/-- Rounding of decimals for the example: all floats are decimals, except that the float of
`2/3` (`ctype_hydrated`) is printed as `0.6666666666666666`. -/
def rnd0 (q : ℚ) : FloatVal := if q = 6666666666666666 / 10 ^ 16 then .fin (2 / 3) else .fin q

/-- The floats are decimals of at most 40 places, or `2/3`. -/
def decB (q : ℚ) : Bool := ((|q| * 10 ^ 40).den == 1 && |q| != 6666666666666666 / 10 ^ 16) || |q| == 2 / 3

theorem decB_ok {q : ℚ} (h : decB q = true) : Decimal rnd0 q := by
  simp only [decB, Bool.or_eq_true, Bool.and_eq_true, beq_iff_eq, bne_iff_ne] at h
  rcases h with ⟨hd, hne⟩ | h
  swap
  · refine ⟨6666666666666666, -16, ?_⟩
    rw [h]
    unfold rnd0
    rw [if_pos (by norm_num)]
  have h0 : 0 ≤ |q| * 10 ^ 40 := by positivity
  refine ⟨(|q| * 10 ^ 40).num.toNat, -40, ?_⟩
  have e : (((|q| * 10 ^ 40).num.toNat : ℕ) : ℚ) = |q| * 10 ^ 40 := by
    have h1 : (((|q| * 10 ^ 40).num.toNat : ℕ) : ℤ) = (|q| * 10 ^ 40).num := Int.toNat_of_nonneg (Rat.num_nonneg.mpr h0)
    have h2 : (((|q| * 10 ^ 40).num : ℤ) : ℚ) = |q| * 10 ^ 40 := (Rat.den_eq_one_iff _).mp hd
    calc (((|q| * 10 ^ 40).num.toNat : ℕ) : ℚ) = ((((|q| * 10 ^ 40).num.toNat : ℕ) : ℤ) : ℚ) := by norm_cast
      _ = _ := by rw [h1, h2]
  have e2 : (((|q| * 10 ^ 40).num.toNat : ℕ) : ℚ) * (10 : ℚ) ^ (-40 : ℤ) = |q| := by
    rw [e, zpow_neg, mul_assoc]
    norm_num
  rw [e2]
  unfold rnd0
  rw [if_neg hne]

/-- The value is of such floats. -/
def atomB : Atom → Bool
  | .float q => decB q
  | _ => true

def valB : PyVal → Bool
  | .float q => decB q
  | .inf _ => false
  | .nan => false
  | .tuple l => l.all atomB
  | .list l => l.all atomB
  | .dict l => decide (l.map (·.1)).Nodup && l.all (fun p => p.2.all atomB)
  | _ => true

theorem atomB_ok {a : Atom} (h : atomB a = true) : AtomOk rnd0 a := by
  cases a <;> first | trivial | exact decB_ok h

theorem valB_ok {v : PyVal} (h : valB v = true) : ValOk rnd0 v := by
  cases v with
  | float q => exact decB_ok h
  | inf b => cases h
  | nan => cases h
  | tuple l => exact fun a ha => atomB_ok (List.all_eq_true.mp h a ha)
  | list l => exact fun a ha => atomB_ok (List.all_eq_true.mp h a ha)
  | dict l =>
    simp only [valB, Bool.and_eq_true, decide_eq_true_eq, List.all_eq_true] at h
    exact ⟨h.1, fun p hp a ha => atomB_ok (h.2 p hp a ha)⟩
  | _ => trivial

/-- The configuration of a run without options can be kept in a file with decimals of finite length. -/
example : ∃ c text, makeCfg env0 [] = .ok c ∧ CfgFile rnd0 (toDict c) text := by
  have h : (makeCfg env0 []).map (fun c => (toDict c).all (fun kv => valB kv.2)) = .ok true := by decide +kernel
  cases hc : makeCfg env0 [] with
  | error e => rw [hc] at h; cases h
  | ok c =>
    rw [hc] at h
    injection h with h
    obtain ⟨text, ht⟩ := C95_writable rnd0 (toDict c) (toDict_nodup c)
      (fun kv hkv => valB_ok (List.all_eq_true.mp h kv hkv))
    exact ⟨c, text, rfl, ht⟩

/-- A printed file with an infinite parameter. -/
example : Nonfinite FloatVal.fin "a".toList "{'a': inf, 'b': 1}".toList :=
  ⟨[], [], [], "'a'".toList, [], [' '], [], "inf".toList, ", 'b': 1}".toList, by decide +kernel, Or.inl (by simp), .nil,
    Or.inl rfl, .one (.mk (u := ['a']) (Or.inl rfl) (.cons (.plain 'a' (by decide)) .nil)), .nil, .blank (by simp) .nil,
    Or.inl rfl, Or.inl rfl, by decide +kernel⟩

/-- Not every text that looks like a dictionary is one. -/
example : (literalEval FloatVal.fin "{'a': 1 'b': 2}".toList).isOk = false ∧
    (literalEval FloatVal.fin "{'a': 010}".toList).isOk = false ∧
    (literalEval FloatVal.fin "{'a': 1}}".toList).isOk = false ∧
    (literalEval FloatVal.fin "{'a': 1,,}".toList).isOk = false ∧
    (literalEval FloatVal.fin "{'a': dict()}".toList).isOk = false := by decide +kernel

end MoonPIES
