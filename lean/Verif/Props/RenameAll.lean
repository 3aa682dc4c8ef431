import Verif.Lemmas.RenameAll
import Verif.Props.Rename
import Verif.Props.Needs

/-!
# C157: cold traps by other names
-/

namespace MoonPIES

open Spec

variable {σ : Type}

theorem craterBasinList_all (N : String → String) (g : Gen σ) (c : RunCfg) (d : RunData)
    (sort : CraterTable → CraterTable)
    (hs : ∀ df, sort (df.map (renameRow N)) = (d.sortAges df).map (renameRow N)) (s : σ) :
    craterBasinList g (renameTraps N c) (renameAll N sort d) s =
      (craterBasinList g c d s).map (fun p => (p.1.map (renameRow N), p.2)) :=
  craterBasinList_rename N g c d sort hs s

theorem runMain_all {Q : List (StratRow ℝ) → List (StratRow ℝ) → Prop} (g : Gen σ) (c : RunCfg) (d : RunData)
    {N : String → String} (hN : Function.Injective N) (sort : CraterTable → CraterTable)
    (hs : ∀ df, sort (df.map (renameRow N)) = (d.sortAges df).map (renameRow N)) {ns : List String}
    (hns : ∀ df s, craterBasinList g c d (g.init c.seed) = .ok (df, s) → ∀ r ∈ df, r.rest.crater.cname ∈ ns)
    (hQ : ∀ (time : List ℝ) (age : ℝ) (a b : StratCol ℝ), SameCol (SameSources N ns) a b →
      ExRel Q (makeStratCol c.thickness_min RunCfg.rtol c.strat_after_age age (toSteps time a))
        (makeStratCol c.thickness_min RunCfg.rtol c.strat_after_age age (toSteps time b))) :
    ExRel (KeyOut N Q) (runMain g c d) (runMain g (renameTraps N c) (renameAll N sort d)) := by
  rw [C139_run_from, C139_run_from, craterBasinList_all N g c d sort hs]
  refine (ExRel.of_eq rfl).bind fun time time' ht => ?_
  subst ht
  have hseed : (renameTraps N c).seed = c.seed := rfl
  rw [hseed]
  cases hcb : craterBasinList g c d (g.init c.seed) with
  | error e => exact rfl
  | ok p =>
    obtain ⟨df, s⟩ := p
    exact runFrom_all hN g c d sort time df (hns df s hcb) s (hQ time)

/-- **C157** Cold traps, craters and basins may all be given other names, as long as different names
remain different and the table of ballistic hops is renamed along: the run fails alike or completes
alike, with the same columns of ice and ejecta under the new names. -/
theorem C157_columns (g : Gen σ) (c : RunCfg) (d : RunData) {N : String → String} (hN : Function.Injective N)
    (sort : CraterTable → CraterTable)
    (hs : ∀ df, sort (df.map (renameRow N)) = (d.sortAges df).map (renameRow N)) :
    (∀ e, runMain g c d = .error e ↔ runMain g (renameTraps N c) (renameAll N sort d) = .error e) ∧
      ∀ out out', runMain g c d = .ok out → runMain g (renameTraps N c) (renameAll N sort d) = .ok out' →
        out'.ice = renameKeys N out.ice ∧ out'.ej = renameKeys N out.ej := by
  obtain ⟨ns, hns⟩ : ∃ ns : List String, ∀ df s, craterBasinList g c d (g.init c.seed) = .ok (df, s) →
      ∀ r ∈ df, r.rest.crater.cname ∈ ns := by
    cases hcb : craterBasinList g c d (g.init c.seed) with
    | error e => exact ⟨[], fun df s h => by cases h⟩
    | ok p =>
      refine ⟨p.1.map (fun r => r.rest.crater.cname), fun df s h => ?_⟩
      injection h with h
      subst h
      intro r hr
      exact List.mem_map.2 ⟨r, hr, rfl⟩
  have key := runMain_all (Q := fun _ _ => True) g c d hN sort hs hns
    (fun time age a b hab => makeStratCol_alike _ _ _ _ (toSteps_times time hab))
  cases h1 : runMain g c d with
  | error e =>
    cases h2 : runMain g (renameTraps N c) (renameAll N sort d) with
    | error e' =>
      rw [h1, h2] at key
      have key : e = e' := key
      subst key
      exact ⟨fun _ => Iff.rfl, fun out out' h => by cases h⟩
    | ok o => rw [h1, h2] at key; exact key.elim
  | ok o =>
    cases h2 : runMain g (renameTraps N c) (renameAll N sort d) with
    | error e' => rw [h1, h2] at key; exact key.elim
    | ok o' =>
      rw [h1, h2] at key
      refine ⟨fun e => ⟨fun h => by (cases h), fun h => by (cases h)⟩, ?_⟩
      intro out out' e1 e2
      injection e1 with e1
      injection e2 with e2
      rw [← e1, ← e2]
      exact ⟨keyRel_renameKeys.1 key.1, keyRel_renameKeys.1 key.2.1⟩

/-- **C157** With plain names before and after, the stratigraphy tables are those of the old cold
traps under their new names, and the same layer by layer but for the names in the labels. -/
theorem C157_tables (g : Gen σ) (c : RunCfg) (d : RunData) {N : String → String} (hN : Function.Injective N)
    (sort : CraterTable → CraterTable)
    (hs : ∀ df, sort (df.map (renameRow N)) = (d.sortAges df).map (renameRow N))
    (hm : ∀ df, ∀ r ∈ d.sortAges df, r ∈ df)
    (hp : ∀ r ∈ d.craters ++ d.basins, PlainName r.cname ∧ PlainName (N r.cname))
    (out : CsvOut) (h : runMain g c d = .ok out) :
    ∃ out', runMain g (renameTraps N c) (renameAll N sort d) = .ok out' ∧
      out'.ice = renameKeys N out.ice ∧ out'.ej = renameKeys N out.ej ∧
      out'.strat = out.strat.map (fun p => (N p.1, p.2.map (relabel (renameLabel N)))) := by
  have p1 : ∀ n ∈ (d.craters ++ d.basins).map (·.cname), PlainName n ∧ PlainName (N n) := by
    intro n hn
    obtain ⟨r, hr, rfl⟩ := List.mem_map.1 hn
    exact hp r hr
  have key := runMain_all (Q := fun a b => b = a.map (relabel (renameLabel N))) g c d hN sort hs
    (fun df s hdf => craterBasinList_names g c d hm df s hdf)
    (fun time age a b hab => makeStratCol_sources (fun n hn => (p1 n hn).1) (fun n hn => (p1 n hn).2)
      (fun n _ m _ e => hN e) _ _ _ time age a b hab)
  rw [h] at key
  cases h2 : runMain g (renameTraps N c) (renameAll N sort d) with
  | error e => rw [h2] at key; exact key.elim
  | ok o =>
    rw [h2] at key
    refine ⟨o, rfl, keyRel_renameKeys.1 key.1, keyRel_renameKeys.1 key.2.1, ?_⟩
    have hd := key.2.2
    clear key h2 h
    generalize out.strat = x at hd ⊢
    generalize o.strat = y at hd ⊢
    induction hd with
    | nil => rfl
    | @cons p q x y hpq _ ih =>
      rw [ih, List.map_cons]
      congr 1
      exact Prod.ext hpq.1 hpq.2

/-- **C157** The table of ballistic hops must be renamed along when it is used: a cold trap by a name
that is not in the table stops the run. -/
theorem C157_hop_table (g : Gen σ) (hg : LawfulGen g) (c : RunCfg) (d : RunData)
    (hp : ∀ l, (d.sortAges l).Perm l) (hm : c.ballistic_hop_moores = true) (n : String)
    (hn : n ∈ c.coldtrap_names) (hh : ∀ p ∈ d.hop, p.1 ≠ n) (out : CsvOut) : runMain g c d ≠ .ok out := by
  intro h
  obtain ⟨x, hx⟩ := (C141_needs g hg c d hp out h).hops hm n hn
  have : ∀ l : PyDict ℝ, (∀ p ∈ l, p.1 ≠ n) → l.get n = .error .keyError := by
    intro l
    induction l with
    | nil => intro _; rfl
    | cons p l ih =>
      intro hl
      obtain ⟨k, v⟩ := p
      unfold PyDict.get
      rw [if_neg (hl (k, v) (by simp)), ih (fun q hq => hl q (by simp [hq]))]
  rw [this d.hop hh] at hx
  cases hx

/-- With the shipped files there is no run for a cold trap called Peary. -/
example (nk : List (ℝ × ℝ)) (sortAges : CraterTable → CraterTable) (sortNk : List (ℝ × ℝ) → List (ℝ × ℝ))
    (setOrder : List (List Char) → List (List Char)) (hp : ∀ l, (sortAges l).Perm l) (g : Gen σ) (hg : LawfulGen g)
    (seed : Nat) (out : CsvOut) : runMain g (withTraps (RunCfg.default seed) ["Haworth", "Peary"])
      (shippedData nk sortAges sortNk setOrder) ≠ .ok out := by
  refine C157_hop_table g hg _ _ hp rfl "Peary" (by simp [withTraps]) ?_ out
  have : ∀ p ∈ hopFile, p.1 ≠ "Peary" := by decide +kernel
  intro p hpm
  obtain ⟨q, hq, rfl⟩ := List.mem_map.1 (show p ∈ hopFile.map (fun p : String × ℚ => (p.1, (p.2 : ℝ))) from hpm)
  exact this q hq

/-- **C157** Different names must remain different: cold traps of the same name share one column,
the one computed last. -/
theorem C157_same_name (ice : List (List ℝ)) (e e' : List ℝ × List String) (n : String) :
    buildCols ice [e, e'] 0 [n, n] [] = .ok [(n, { ice := column ice 1, ej := e'.1, src := e'.2 })] := by
  unfold buildCols buildCols buildCols
  simp [pyGet, PyDict.set, bind, Except.bind]

/-- The names of two cold traps exchanged. -/
def swapNames (n : String) : String :=
  if n = "Haworth" then "Faustini" else if n = "Faustini" then "Haworth" else n

theorem swapNames_injective : Function.Injective swapNames := by
  have h : ∀ n, swapNames (swapNames n) = n := by
    intro n
    unfold swapNames
    by_cases h1 : n = "Haworth"
    · subst h1; decide
    · by_cases h2 : n = "Faustini"
      · subst h2; decide
      · simp only [if_neg h1, if_neg h2]
  exact Function.LeftInverse.injective h

/-- C157 applies to the shipped files with the names of Haworth and Faustini exchanged. -/
example (nk : List (ℝ × ℝ)) (sortNk : List (ℝ × ℝ) → List (ℝ × ℝ)) (setOrder : List (List Char) → List (List Char))
    (g : Gen σ) (seed : Nat) (out : CsvOut)
    (h : runMain g (RunCfg.default seed) (shippedData nk
      (fun df => df.mergeSort (fun a b => decide (b.age ≤ a.age))) sortNk setOrder) = .ok out) :
    ∃ out', runMain g (renameTraps swapNames (RunCfg.default seed)) (renameAll swapNames
        (fun df => df.mergeSort (fun a b => decide (b.age ≤ a.age))) (shippedData nk
        (fun df => df.mergeSort (fun a b => decide (b.age ≤ a.age))) sortNk setOrder)) = .ok out' ∧
      out'.ice = renameKeys swapNames out.ice ∧ out'.ej = renameKeys swapNames out.ej ∧
      out'.strat = out.strat.map (fun p => (swapNames p.1, p.2.map (relabel (renameLabel swapNames)))) := by
  refine C157_tables g _ _ swapNames_injective _ (C156_stable swapNames) ?_ ?_ out h
  · intro df r hr
    exact List.mem_mergeSort.1 hr
  · intro r hr
    rw [show (shippedData nk (fun df => df.mergeSort (fun a b => decide (b.age ≤ a.age))) sortNk setOrder).craters ++
        (shippedData nk (fun df => df.mergeSort (fun a b => decide (b.age ≤ a.age))) sortNk setOrder).basins =
        (craterFile ++ basinFile).map FileRow.read by rw [List.map_append]; rfl] at hr
    obtain ⟨q, hq, rfl⟩ := List.mem_map.1 hr
    have : ∀ q ∈ craterFile ++ basinFile, ∀ n ∈ [q.cname, swapNames q.cname],
        (decide (n ≠ "") && decide (',' ∉ n.toList) && decide (n ≠ "Ice") &&
        decide (n ≠ "Minor source(s)") && decide (n ≠ "Formation age")) = true := by decide +kernel
    change PlainName q.cname ∧ PlainName (swapNames q.cname)
    exact ⟨plainName_dec _ (this q hq _ (by simp)), plainName_dec _ (this q hq _ (by simp))⟩

end MoonPIES
