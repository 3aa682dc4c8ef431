import Verif.Lemmas.Rename

/-!
# Helper lemmas for renaming craters: labels of layers
-/

namespace MoonPIES

open Spec

/-! ## Lists of names -/

theorem split_join : ∀ (l : List String), l ≠ [] → (∀ n ∈ l, ',' ∉ n.toList) →
    splitComma (joinComma l).toList = l.map String.toList
  | [], h, _ => absurd rfl h
  | [a], _, h => by
    rw [joinComma, splitComma_free _ (h a (by simp))]
    rfl
  | a :: b :: l, _, h => by
    have ih := split_join (b :: l) (by simp) (fun n hn => h n (by simp [hn]))
    rw [joinComma, String.toList_append, String.toList_append, List.append_assoc]
    have : (",".toList ++ (joinComma (b :: l)).toList) = ',' :: (joinComma (b :: l)).toList := rfl
    rw [this, splitComma_append, ih, splitComma_free _ (h a (by simp))]
    rfl

theorem toList_map_inj {l m : List String} (h : l.map String.toList = m.map String.toList) : l = m :=
  List.map_injective_iff.2 (fun _ _ e => String.toList_inj.1 e) h

/-- A list of plain names never spells one of the labels. -/
theorem join_plain_ne {l : List String} (hl : l ≠ []) (h : ∀ n ∈ l, PlainName n) {w : String}
    (hw : w = "" ∨ w = "Ice" ∨ w = "Minor source(s)" ∨ w = "Formation age") : joinComma l ≠ w := by
  intro e
  have hc : ',' ∉ w.toList := by
    rcases hw with rfl | rfl | rfl | rfl <;> decide
  have hs := split_join l hl (fun n hn => (h n hn).2.1)
  rw [e, splitComma_free _ hc] at hs
  have : [w] = l := toList_map_inj hs
  have hp := h w (by rw [← this]; simp)
  obtain ⟨p1, -, p2, p3, p4⟩ := hp
  rcases hw with hw | hw | hw | hw
  · exact p1 hw
  · exact p2 hw
  · exact p3 hw
  · exact p4 hw

theorem renameLabel_join (N : String → String) {l : List String} (h : ∀ n ∈ l, PlainName n) :
    renameLabel N (joinComma l) = joinComma (l.map N) := by
  by_cases hl : l = []
  · subst hl
    simp [joinComma, renameLabel]
  · unfold renameLabel
    rw [if_neg, split_join l hl (fun n hn => (h n hn).2.1), List.map_map]
    · congr 1
      refine List.map_congr_left fun n _ => ?_
      simp
    · intro hw
      exact join_plain_ne hl h hw rfl

theorem plain_good {s : String} (h : PlainName s) : GoodName s := by
  obtain ⟨h1, h2, -⟩ := h
  have hne : s.toList ≠ [] := fun e => h1 (String.toList_inj.1 (by rw [e]; rfl))
  refine ⟨s.toList.dropLast, s.toList.getLast hne, (List.dropLast_append_getLast hne).symm, ?_⟩
  intro e
  exact h2 (e ▸ List.getLast_mem hne)

theorem SameSources.label {N : String → String} {ns : List String} (h : ∀ n ∈ ns, PlainName n)
    (h' : ∀ n ∈ ns, PlainName (N n)) {a b : String} (hab : SameSources N ns a b) :
    b = renameLabel N a ∧ ∃ l : List String, (∀ n ∈ l, n ∈ ns) ∧ a = joinComma l := by
  obtain ⟨l, h1, rfl, rfl⟩ := hab
  have e1 : rstripComma (accLabel l) = joinComma l := labels_join l (fun n hn => plain_good (h n (h1 n hn)))
  have e2 : rstripComma (accLabel (l.map N)) = joinComma (l.map N) := by
    refine labels_join _ ?_
    intro n hn
    obtain ⟨m, hm, rfl⟩ := List.mem_map.1 hn
    exact plain_good (h' m (h1 m hm))
  rw [e1, e2]
  exact ⟨(renameLabel_join N (fun n hn => h n (h1 n hn))).symm, l, h1, rfl⟩

/-- The labels that a table can have. -/
def TableLabel (ns : List String) (s : String) : Prop :=
  (s = "" ∨ s = "Ice" ∨ s = "Minor source(s)" ∨ s = "Formation age") ∨
    ∃ l : List String, l ≠ [] ∧ (∀ n ∈ l, n ∈ ns) ∧ s = joinComma l

theorem renameLabel_inj {N : String → String} {ns : List String} (h : ∀ n ∈ ns, PlainName n)
    (h' : ∀ n ∈ ns, PlainName (N n)) (hi : ∀ n ∈ ns, ∀ m ∈ ns, N n = N m → n = m) {a b : String}
    (ha : TableLabel ns a) (hb : TableLabel ns b) (e : renameLabel N a = renameLabel N b) : a = b := by
  have fix : ∀ w, (w = "" ∨ w = "Ice" ∨ w = "Minor source(s)" ∨ w = "Formation age") → renameLabel N w = w := by
    intro w hw
    unfold renameLabel
    rw [if_pos hw]
  have mapped : ∀ l : List String, l ≠ [] → (∀ n ∈ l, n ∈ ns) → l.map N ≠ [] ∧ ∀ n ∈ l.map N, PlainName n := by
    intro l hl h1
    refine ⟨by simpa using hl, ?_⟩
    intro n hn
    obtain ⟨m, hm, rfl⟩ := List.mem_map.1 hn
    exact h' m (h1 m hm)
  rcases ha with ha | ⟨l, hl, h1, rfl⟩ <;> rcases hb with hb | ⟨m, hm, h2, rfl⟩
  · rwa [fix a ha, fix b hb] at e
  · rw [fix a ha, renameLabel_join N (fun n hn => h n (h2 n hn))] at e
    obtain ⟨q1, q2⟩ := mapped m hm h2
    exact absurd e.symm (join_plain_ne q1 q2 ha)
  · rw [fix b hb, renameLabel_join N (fun n hn => h n (h1 n hn))] at e
    obtain ⟨q1, q2⟩ := mapped l hl h1
    exact absurd e (join_plain_ne q1 q2 hb)
  · rw [renameLabel_join N (fun n hn => h n (h1 n hn)), renameLabel_join N (fun n hn => h n (h2 n hn))] at e
    obtain ⟨p1, p2⟩ := mapped l hl h1
    obtain ⟨q1, q2⟩ := mapped m hm h2
    have s1 := split_join _ p1 (fun n hn => (p2 n hn).2.1)
    have s2 := split_join _ q1 (fun n hn => (q2 n hn).2.1)
    rw [e, s2] at s1
    have e' := toList_map_inj s1
    congr 1
    clear s1 s2 p1 p2 q1 q2 e hl hm
    induction l generalizing m with
    | nil =>
      cases m with
      | nil => rfl
      | cons b m => simp at e'
    | cons a l ih =>
      cases m with
      | nil => simp at e'
      | cons b m =>
        rw [List.map_cons, List.map_cons] at e'
        injection e' with e1 e2
        rw [hi b (h2 b (by simp)) a (h1 a (by simp)) e1,
          ih (fun n hn => h1 n (by simp [hn])) m (fun n hn => h2 n (by simp [hn])) e2]

/-! ## Tables -/

section table

variable (F : String → String) (U : String → Prop)

/-- A row before merging with its label changed. -/
def relabelRow (r : Row ℝ) : Row ℝ := { r with label := F r.label }

theorem adjKeys_relabel (hF : ∀ a b, U a → U b → F a = F b → a = b) : ∀ (rows : List (Row ℝ)) (prev : Option String)
    (n : Nat), (∀ r ∈ rows, U r.label) → (∀ p, prev = some p → U p) →
    adjKeys (·.label) (prev.map F) n (rows.map (relabelRow F)) =
      (adjKeys (·.label) prev n rows).map (fun p => ((F p.1.1, p.1.2), relabelRow F p.2))
  | [], _, _, _, _ => rfl
  | r :: rows, prev, n, h, hp => by
    have hr := h r (by simp)
    rw [List.map_cons, adjKeys, adjKeys]
    have hif : (prev.map F = some (relabelRow F r).label) ↔ (prev = some r.label) := by
      cases prev with
      | none => simp
      | some p =>
        simp only [Option.map_some, Option.some.injEq, relabelRow]
        exact ⟨fun e => hF _ _ (hp p rfl) hr e, fun e => by rw [e]⟩
    have hc : (if prev.map F = some (relabelRow F r).label then n else n + 1) =
        (if prev = some r.label then n else n + 1) := by
      by_cases e : prev = some r.label
      · rw [if_pos e, if_pos (hif.2 e)]
      · rw [if_neg e, if_neg (fun e' => e (hif.1 e'))]
    simp only [hc]
    rw [List.map_cons]
    congr 1
    exact adjKeys_relabel hF rows (some r.label) _ (fun q hq => h q (by simp [hq]))
      (fun p e => by cases e; exact hr)

/-- A group with its labels changed. -/
def relabelGroup (gp : (String × Nat) × Row ℝ × List (Row ℝ)) : (String × Nat) × Row ℝ × List (Row ℝ) :=
  ((F gp.1.1, gp.1.2), relabelRow F gp.2.1, gp.2.2.map (relabelRow F))

theorem groupInsert_relabel (hF : ∀ a b, U a → U b → F a = F b → a = b) (k : String × Nat) (a : Row ℝ) (hk : U k.1) :
    ∀ (gs : List ((String × Nat) × Row ℝ × List (Row ℝ))), (∀ g ∈ gs, U g.1.1) →
    groupInsert (F k.1, k.2) (relabelRow F a) (gs.map (relabelGroup F)) = (groupInsert k a gs).map (relabelGroup F) ∧
      ∀ g ∈ groupInsert k a gs, U g.1.1
  | [], _ => by
    refine ⟨rfl, ?_⟩
    intro g hg
    rw [groupInsert, List.mem_singleton] at hg
    rw [hg]
    exact hk
  | (k', f, os) :: gs, h => by
    have hk' := h (k', f, os) (by simp)
    obtain ⟨ih1, ih2⟩ := groupInsert_relabel hF k a hk gs (fun g hg => h g (by simp [hg]))
    rw [List.map_cons]
    have e : ((F k'.1, k'.2) = (F k.1, k.2)) ↔ k' = k := by
      constructor
      · intro e
        injection e with e1 e2
        exact Prod.ext (hF _ _ hk' hk e1) e2
      · rintro rfl; rfl
    unfold relabelGroup
    simp only [groupInsert]
    by_cases hkk : k' = k
    · rw [if_pos hkk, if_pos (e.2 hkk)]
      refine ⟨by simp, ?_⟩
      intro g hg
      rcases List.mem_cons.1 hg with rfl | hg
      · exact hk'
      · exact h g (by simp [hg])
    · rw [if_neg hkk, if_neg (fun e' => hkk (e.1 e'))]
      refine ⟨?_, ?_⟩
      · rw [List.map_cons]
        congr 1
      · intro g hg
        rcases List.mem_cons.1 hg with rfl | hg
        · exact hk'
        · exact ih2 g hg

theorem mergeAdjacent_relabel (hF : ∀ a b, U a → U b → F a = F b → a = b) (rows : List (Row ℝ))
    (h : ∀ r ∈ rows, U r.label) :
    mergeAdjacent (rows.map (relabelRow F)) = (mergeAdjacent rows).map (relabelRow F) := by
  have fold : ∀ (ks : List ((String × Nat) × Row ℝ)) (gs : List ((String × Nat) × Row ℝ × List (Row ℝ))),
      (∀ k ∈ ks, U k.1.1) → (∀ g ∈ gs, U g.1.1) →
      (ks.map (fun p => ((F p.1.1, p.1.2), relabelRow F p.2))).foldl (fun gs ka => groupInsert ka.1 ka.2 gs)
        (gs.map (relabelGroup F)) = (ks.foldl (fun gs ka => groupInsert ka.1 ka.2 gs) gs).map (relabelGroup F) := by
    intro ks
    induction ks with
    | nil => intro gs _ _; rfl
    | cons k ks ih =>
      intro gs hk hg
      obtain ⟨e1, e2⟩ := groupInsert_relabel F U hF k.1 k.2 (hk k (by simp)) gs hg
      rw [List.map_cons, List.foldl_cons, List.foldl_cons]
      simp only [e1]
      exact ih _ (fun q hq => hk q (by simp [hq])) e2
  have keysU : ∀ (rows : List (Row ℝ)) (prev : Option String) (n : Nat), (∀ r ∈ rows, U r.label) →
      ∀ k ∈ adjKeys (·.label) prev n rows, U k.1.1 := by
    intro rows
    induction rows with
    | nil => intro _ _ _ k hk; simp [adjKeys] at hk
    | cons r rows ih =>
      intro prev n h k hk
      rw [adjKeys] at hk
      rcases List.mem_cons.1 hk with rfl | hk
      · exact h r (by simp)
      · exact ih _ _ (fun q hq => h q (by simp [hq])) k hk
  have agg : ∀ gp : Row ℝ × List (Row ℝ),
      aggRow (relabelRow F gp.1, gp.2.map (relabelRow F)) = relabelRow F (aggRow gp) := by
    rintro ⟨f, os⟩
    have hl : (os.map (relabelRow F)).getLastD (relabelRow F f) = relabelRow F (os.getLastD f) := by
      rw [List.getLastD_eq_getLast?, List.getLastD_eq_getLast?, List.getLast?_map]
      cases os.getLast? <;> rfl
    unfold aggRow
    simp only [hl, List.map_cons, List.map_map]
    rfl
  unfold mergeAdjacent groupRuns
  have := adjKeys_relabel F U hF rows none 0 h (by intro p e; cases e)
  rw [Option.map_none] at this
  rw [this]
  have := fold (adjKeys (·.label) none 0 rows) [] (keysU rows none 0 h) (by simp)
  rw [List.map_nil] at this
  rw [this]
  simp only [List.map_map]
  refine List.map_congr_left fun gp _ => ?_
  exact agg gp.2

theorem addDepthPct_relabel (rows : List (Row ℝ)) :
    addDepthPct (rows.map (relabelRow F)) = (addDepthPct rows).map (relabel F) := by
  unfold addDepthPct
  simp only [List.map_map, List.zipWith_map_left, List.map_zipWith]
  rfl

/-- A step of a column with its source changed. -/
def relabelStep (s : Step ℝ) : Step ℝ := { s with src := F s.src }

theorem rowLabel_relabel (h0 : F "" = "") (hI : F "Ice" = "Ice") (hM : F "Minor source(s)" = "Minor source(s)")
    (hF : ∀ a b, U a → U b → F a = F b → a = b) (u0 : U "") (tm : ℝ) (s : Step ℝ) (hs : U s.src) :
    rowLabel tm (relabelStep F s) = (rowLabel tm s).map F := by
  have hz : F s.src = "" ↔ s.src = "" := ⟨fun e => hF _ _ hs u0 (by rw [e, h0]), fun e => by rw [e, h0]⟩
  unfold rowLabel relabelStep
  simp only []
  by_cases he : s.ejecta > tm
  · simp only [if_pos he, Option.some.injEq]
    by_cases e : s.src = ""
    · rw [if_pos (hz.2 e), if_pos e, Option.map_some, hM]
    · rw [if_neg (fun e' => e (hz.1 e')), if_neg e, Option.map_some]
  · simp only [if_neg he]
    by_cases hi : s.ice > tm
    · simp only [if_pos hi]
      rw [if_neg (by decide), Option.map_some, hI]
    · simp only [if_neg hi]
      rw [if_neg (by simp)]
      rfl

theorem makeStratCol_relabel (h0 : F "" = "") (hI : F "Ice" = "Ice") (hM : F "Minor source(s)" = "Minor source(s)")
    (hA : F "Formation age" = "Formation age") (hF : ∀ a b, U a → U b → F a = F b → a = b) (u0 : U "")
    (uI : U "Ice") (uM : U "Minor source(s)") (uA : U "Formation age") (tm tol : ℝ) (after : Bool) (age : ℝ)
    (steps : List (Step ℝ)) (hs : ∀ s ∈ steps, U s.src) :
    makeStratCol tm tol after age (steps.map (relabelStep F)) =
      (makeStratCol tm tol after age steps).map (List.map (relabel F)) := by
  have e1 : labelRows tm (steps.map (relabelStep F)) =
      (labelRows tm steps).map (fun p => (p.1.map F, relabelRow F p.2)) := by
    unfold labelRows
    rw [List.map_map, List.map_map]
    refine List.map_congr_left fun s h => ?_
    have := rowLabel_relabel F U h0 hI hM hF u0 tm s (hs s h)
    simp only [Function.comp, this, relabelRow]
    refine Prod.ext rfl ?_
    cases rowLabel tm s with
    | none => simp [h0, relabelStep]
    | some l => simp [relabelStep]
  have hU : ∀ p ∈ labelRows tm steps, U p.2.label := by
    intro p hp
    unfold labelRows at hp
    obtain ⟨s, h, rfl⟩ := List.mem_map.1 hp
    have : ∀ l, rowLabel tm s = some l → U l := by
      intro l hl
      unfold rowLabel at hl
      simp only [] at hl
      by_cases he : s.ejecta > tm
      · simp only [if_pos he, Option.some.injEq] at hl
        by_cases e : s.src = ""
        · rw [if_pos e] at hl; injection hl with hl; rw [← hl]; exact uM
        · rw [if_neg e] at hl; injection hl with hl; rw [← hl]; exact hs s h
      · simp only [if_neg he] at hl
        by_cases hi : s.ice > tm
        · simp only [if_pos hi] at hl
          rw [if_neg (by decide)] at hl
          injection hl with hl; rw [← hl]; exact uI
        · simp only [if_neg hi] at hl
          rw [if_neg (by simp)] at hl
          cases hl
    cases hl : rowLabel tm s with
    | none => simpa using u0
    | some l => simpa using this l hl
  have drop : ∀ rows : List (Option String × Row ℝ),
      dropUnlabelled (rows.map (fun p => (p.1.map F, relabelRow F p.2))) =
        (dropUnlabelled rows).map (relabelRow F) := by
    intro rows
    unfold dropUnlabelled
    rw [List.filterMap_map, List.map_filterMap]
    refine List.filterMap_congr fun p _ => ?_
    cases hp : p.1 <;> simp [Function.comp, hp]
  have fin : ∀ rows : List (Option String × Row ℝ), (∀ p ∈ rows, U p.2.label) →
      addDepthPct (mergeAdjacent (dropUnlabelled (rows.map (fun p => (p.1.map F, relabelRow F p.2))))) =
        (addDepthPct (mergeAdjacent (dropUnlabelled rows))).map (relabel F) := by
    intro rows h
    rw [drop, mergeAdjacent_relabel F U hF, addDepthPct_relabel]
    intro r hr
    unfold dropUnlabelled at hr
    obtain ⟨p, hp, e⟩ := List.mem_filterMap.1 hr
    cases hp1 : p.1 with
    | none => rw [hp1] at e; cases e
    | some l =>
      rw [hp1] at e
      injection e with e
      rw [← e]
      exact h p hp
  unfold makeStratCol
  rw [e1]
  cases after with
  | false =>
    simp only [Bool.false_eq_true, if_false]
    exact congrArg Except.ok (fin _ hU)
  | true =>
    simp only [if_true]
    have hcut : cutAtAge age tol ((labelRows tm steps).map (fun p => (p.1.map F, relabelRow F p.2))) =
        (cutAtAge age tol (labelRows tm steps)).map (List.map (fun p => (p.1.map F, relabelRow F p.2))) := by
      unfold cutAtAge
      rw [List.filter_map]
      have hc : (fun r : Option String × Row ℝ => decide (r.2.time < age + rtolAbs age tol)) ∘
          (fun p => (p.1.map F, relabelRow F p.2)) =
          (fun r : Option String × Row ℝ => decide (r.2.time < age + rtolAbs age tol)) := rfl
      rw [hc]
      cases (labelRows tm steps).filter (fun r => decide (r.2.time < age + rtolAbs age tol)) with
      | nil => rfl
      | cons r rest =>
        simp only [List.map_cons, Except.map]
        congr 2
        simp [relabelRow, hA]
    rw [hcut]
    cases hr : cutAtAge age tol (labelRows tm steps) with
    | error e => rfl
    | ok rows =>
      refine congrArg Except.ok (fin rows ?_)
      intro p hp
      unfold cutAtAge at hr
      cases hf : (labelRows tm steps).filter (fun r => decide (r.2.time < age + rtolAbs age tol)) with
      | nil => rw [hf] at hr; cases hr
      | cons r rest =>
        rw [hf] at hr
        injection hr with hr
        rw [← hr] at hp
        rcases List.mem_cons.1 hp with rfl | hp
        · exact uA
        · rw [← hf] at hp
          exact hU p (List.mem_of_mem_filter hp)

end table

end MoonPIES
