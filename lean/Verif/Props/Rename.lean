import Verif.Lemmas.RenameTable
import Verif.Props.Aloof
import Verif.Model.Shipped

/-!
# C156: craters and basins by other names
-/

namespace MoonPIES

open Spec

variable {σ : Type}

theorem newAges_rename (N : String → String) (ts : ℝ) (z : Nat → ℝ) : ∀ (df : CraterTable) (i : Nat),
    newAges ts z i (df.map (renameRow N)) = (newAges ts z i df).map (List.map (renameRow N))
  | [], _ => rfl
  | r :: df, i => by
    rw [List.map_cons, newAges, newAges, newAges_rename N ts z df (i + 1)]
    have : newAge ts (z i) (renameRow N r) = (newAge ts (z i) r).map (renameRow N) := by
      unfold newAge
      have h1 : sigOf (renameRow N r) = sigOf r := rfl
      have h2 : truncA (renameRow N r) = truncA r := rfl
      have h3 : truncB (renameRow N r) = truncB r := rfl
      rw [h1, h2, h3]
      split
      · rfl
      · split <;> rfl
    rw [this]
    cases newAge ts (z i) r with
    | error e => rfl
    | ok r' => cases newAges ts z (i + 1) df <;> rfl

theorem craterBasinList_rename (N : String → String) (g : Gen σ) (c : RunCfg) (d : RunData)
    (sort : CraterTable → CraterTable)
    (hs : ∀ df, sort (df.map (renameRow N)) = (d.sortAges df).map (renameRow N)) (s : σ) :
    craterBasinList g c (renameData N sort d) s =
      (craterBasinList g c d s).map (fun p => (p.1.map (renameRow N), p.2)) := by
  unfold craterBasinList
  have e1 : (renameData N sort d).craters.map (readRow false "no") =
      (d.craters.map (readRow false "no")).map (renameRow N) := by
    simp only [renameData, List.map_map]
    rfl
  have e2 : ∀ icy : List String, List.zipWith (fun r icy => readRow true icy r) (renameData N sort d).basins icy =
      (List.zipWith (fun r icy => readRow true icy r) d.basins icy).map (renameRow N) := by
    intro icy
    simp only [renameData]
    rw [List.zipWith_map_left, List.map_zipWith]
    rfl
  have e3 : (renameData N sort d).basins.length = d.basins.length := by simp [renameData]
  rw [e1, e3]
  have e4 : ∀ df : CraterTable, (df.map (renameRow N)).map (fun r => (truncA r, truncB r)) =
      df.map (fun r => (truncA r, truncB r)) := by
    intro df
    rw [List.map_map]
    rfl
  simp only [e2, ← List.map_append, e4]
  unfold randomizeAges
  rw [newAges_rename]
  have e5 : (renameData N sort d).sortAges = sort := rfl
  rw [e5]
  cases newAges c.timestep _ 0 _ with
  | error e => rfl
  | ok df =>
    simp only [Except.map, bind, Except.bind, hs]

theorem toSteps_times {T : String → String → Prop} (time : List ℝ) {a b : StratCol ℝ} (h : SameCol T a b) :
    (toSteps time a).map (·.time) = (toSteps time b).map (·.time) := by
  obtain ⟨h1, h2, h3⟩ := h
  have hl := h3.length_eq
  unfold toSteps
  rw [h1, h2]
  apply List.ext_getElem
  · simp [hl]
  · intro i i1 i2
    simp

theorem makeStratCol_alike (tm tol : ℝ) (after : Bool) (age : ℝ) {s t : List (Step ℝ)}
    (h : s.map (·.time) = t.map (·.time)) :
    ExRel (fun _ _ => True) (makeStratCol tm tol after age s) (makeStratCol tm tol after age t) := by
  unfold makeStratCol
  cases after with
  | false => exact trivial
  | true =>
    simp only [if_true]
    have key : ∀ l : List (Step ℝ), ((labelRows tm l).filter
        (fun r => decide (r.2.time < age + rtolAbs age tol))).length =
        ((l.map (·.time)).filter (fun x => decide (x < age + rtolAbs age tol))).length := by
      intro l
      unfold labelRows
      rw [List.filter_map, List.filter_map, List.length_map, List.length_map]
      rfl
    have hlen := (key s).trans ((congrArg (fun l => (l.filter
      (fun x => decide (x < age + rtolAbs age tol))).length) h).trans (key t).symm)
    unfold cutAtAge
    cases h1 : (labelRows tm s).filter (fun r => decide (r.2.time < age + rtolAbs age tol)) with
    | nil =>
      cases h2 : (labelRows tm t).filter (fun r => decide (r.2.time < age + rtolAbs age tol)) with
      | nil => exact rfl
      | cons a l => rw [h1, h2] at hlen; simp at hlen
    | cons a l =>
      cases h2 : (labelRows tm t).filter (fun r => decide (r.2.time < age + rtolAbs age tol)) with
      | nil => rw [h1, h2] at hlen; simp at hlen
      | cons b m => exact trivial

theorem runMain_rename {Q : List (StratRow ℝ) → List (StratRow ℝ) → Prop} (g : Gen σ) (c : RunCfg) (d : RunData)
    {N : String → String} (hN : KeepsTraps N c.coldtrap_names) (sort : CraterTable → CraterTable)
    (hs : ∀ df, sort (df.map (renameRow N)) = (d.sortAges df).map (renameRow N)) {ns : List String}
    (hns : ∀ df s, craterBasinList g c d (g.init c.seed) = .ok (df, s) → ∀ r ∈ df, r.rest.crater.cname ∈ ns)
    (hQ : ∀ (time : List ℝ) (age : ℝ) (a b : StratCol ℝ), SameCol (SameSources N ns) a b →
      ExRel Q (makeStratCol c.thickness_min RunCfg.rtol c.strat_after_age age (toSteps time a))
        (makeStratCol c.thickness_min RunCfg.rtol c.strat_after_age age (toSteps time b))) :
    ExRel (SameOut Q) (runMain g c d) (runMain g c (renameData N sort d)) := by
  rw [C139_run_from, C139_run_from, craterBasinList_rename N g c d sort hs]
  refine (ExRel.of_eq rfl).bind fun time time' ht => ?_
  subst ht
  cases hcb : craterBasinList g c d (g.init c.seed) with
  | error e => exact rfl
  | ok p =>
    obtain ⟨df, s⟩ := p
    exact runFrom_rename g c d hN sort time df (hns df s hcb) s (hQ time)

theorem craterBasinList_names (g : Gen σ) (c : RunCfg) (d : RunData) (hm : ∀ df, ∀ r ∈ d.sortAges df, r ∈ df)
    (df : CraterTable) (s : σ) (hdf : craterBasinList g c d (g.init c.seed) = .ok (df, s)) :
    ∀ r ∈ df, r.rest.crater.cname ∈ (d.craters ++ d.basins).map (·.cname) := by
  intro r hr
  obtain ⟨z, mid, m1, rfl⟩ := craterBasinList_inv g c d _ _ df hdf
  have hmid := hm mid r hr
  have hrest : r.rest ∈ (rawTable g c d (g.init c.seed)).map (·.rest) := by
    rw [← newAges_rest _ _ _ _ _ m1]
    exact List.mem_map.2 ⟨r, hmid, rfl⟩
  obtain ⟨q, hq, hqr⟩ := List.mem_map.1 hrest
  rw [← hqr]
  unfold rawTable at hq
  rcases List.mem_append.1 hq with hq | hq
  · obtain ⟨w, hw, rfl⟩ := List.mem_map.1 hq
    exact List.mem_map.2 ⟨w, by simp [hw], rfl⟩
  · rw [List.mem_iff_getElem] at hq
    obtain ⟨k, hk, rfl⟩ := hq
    rw [List.getElem_zipWith]
    exact List.mem_map.2 ⟨_, List.mem_append_right _ (List.getElem_mem _), rfl⟩

theorem makeStratCol_sources {N : String → String} {ns : List String} (p1 : ∀ n ∈ ns, PlainName n)
    (p2 : ∀ n ∈ ns, PlainName (N n)) (p3 : ∀ n ∈ ns, ∀ m ∈ ns, N n = N m → n = m) (tm tol : ℝ) (after : Bool)
    (time : List ℝ) (age : ℝ) (a b : StratCol ℝ) (hab : SameCol (SameSources N ns) a b) :
    ExRel (fun a b => b = a.map (relabel (renameLabel N))) (makeStratCol tm tol after age (toSteps time a))
      (makeStratCol tm tol after age (toSteps time b)) := by
  have fix : ∀ w, (w = "" ∨ w = "Ice" ∨ w = "Minor source(s)" ∨ w = "Formation age") → renameLabel N w = w := by
    intro w hw
    unfold renameLabel
    rw [if_pos hw]
  obtain ⟨h1, h2, h3⟩ := hab
  have hsrc : b.src = a.src.map (renameLabel N) ∧ ∀ x ∈ a.src, TableLabel ns x := by
    clear h1 h2
    generalize a.src = x at h3 ⊢
    generalize b.src = y at h3 ⊢
    induction h3 with
    | nil => exact ⟨rfl, by simp⟩
    | @cons u v x y huv _ ih =>
      obtain ⟨e, l, l1, l2⟩ := SameSources.label p1 p2 huv
      refine ⟨by rw [List.map_cons, ← e, ih.1], ?_⟩
      intro w hw
      rcases List.mem_cons.1 hw with rfl | hw
      · by_cases hl : l = []
        · left; left
          rw [l2, hl]
          rfl
        · right
          exact ⟨l, hl, l1, l2⟩
      · exact ih.2 w hw
  have hsteps : toSteps time b = (toSteps time a).map (relabelStep (renameLabel N)) := by
    unfold toSteps
    rw [← h1, ← h2, hsrc.1, List.map_zipWith]
    rw [List.zip_map_right, List.zip_map_right, List.zipWith_map_right]
    rfl
  rw [hsteps, makeStratCol_relabel (renameLabel N) (TableLabel ns) (fix _ (by simp)) (fix _ (by simp))
    (fix _ (by simp)) (fix _ (by simp)) (fun a b ha hb e => renameLabel_inj p1 p2 p3 ha hb e) (by left; simp)
    (by left; simp) (by left; simp) (by left; simp)]
  · cases makeStratCol tm tol after age (toSteps time a) with
    | error e => exact rfl
    | ok t => exact rfl
  · intro s hs
    unfold toSteps at hs
    rw [List.mem_iff_getElem] at hs
    obtain ⟨k, hk, rfl⟩ := hs
    rw [List.getElem_zipWith, List.getElem_zip, List.getElem_zip]
    exact hsrc.2 _ (List.getElem_mem _)

/-- **C156** Craters and basins may be given any other names, as long as the cold traps keep theirs
and no other crater is named like one: the run fails alike or completes alike, and all columns of
ice and ejecta are the same. -/
theorem C156_columns (g : Gen σ) (c : RunCfg) (d : RunData) {N : String → String}
    (hN : KeepsTraps N c.coldtrap_names) (sort : CraterTable → CraterTable)
    (hs : ∀ df, sort (df.map (renameRow N)) = (d.sortAges df).map (renameRow N)) :
    (∀ e, runMain g c d = .error e ↔ runMain g c (renameData N sort d) = .error e) ∧
      ∀ out out', runMain g c d = .ok out → runMain g c (renameData N sort d) = .ok out' →
        out.ice = out'.ice ∧ out.ej = out'.ej := by
  obtain ⟨ns, hns⟩ : ∃ ns : List String, ∀ df s, craterBasinList g c d (g.init c.seed) = .ok (df, s) →
      ∀ r ∈ df, r.rest.crater.cname ∈ ns := by
    cases hcb : craterBasinList g c d (g.init c.seed) with
    | error e => exact ⟨[], fun df s h => by cases h⟩
    | ok p =>
      refine ⟨p.1.map (fun r => r.rest.crater.cname), fun df s h => ?_⟩
      injection h with h
      subst h
      intro r hr
      exact List.mem_map.2 ⟨r, hr, rfl⟩
  have key := runMain_rename (Q := fun _ _ => True) g c d hN sort hs hns
    (fun time age a b hab => makeStratCol_alike _ _ _ _ (toSteps_times time hab))
  cases h1 : runMain g c d with
  | error e =>
    cases h2 : runMain g c (renameData N sort d) with
    | error e' =>
      rw [h1, h2] at key
      have key : e = e' := key
      subst key
      exact ⟨fun _ => Iff.rfl, fun out out' h => by cases h⟩
    | ok o => rw [h1, h2] at key; exact key.elim
  | ok o =>
    cases h2 : runMain g c (renameData N sort d) with
    | error e' => rw [h1, h2] at key; exact key.elim
    | ok o' =>
      rw [h1, h2] at key
      refine ⟨fun e => ⟨fun h => by (cases h), fun h => by (cases h)⟩, ?_⟩
      intro out out' e1 e2
      injection e1 with e1
      injection e2 with e2
      rw [← e1, ← e2]
      exact ⟨key.1, key.2.1⟩

/-- **C156** If the names before and after are plain and remain different, the stratigraphy tables
are the same too, layer by layer, but for the names in the labels. -/
theorem C156_tables (g : Gen σ) (c : RunCfg) (d : RunData) {N : String → String}
    (hN : KeepsTraps N c.coldtrap_names) (sort : CraterTable → CraterTable)
    (hs : ∀ df, sort (df.map (renameRow N)) = (d.sortAges df).map (renameRow N))
    (hm : ∀ df, ∀ r ∈ d.sortAges df, r ∈ df)
    (hp : ∀ r ∈ d.craters ++ d.basins, PlainName r.cname ∧ PlainName (N r.cname))
    (hi : ∀ r ∈ d.craters ++ d.basins, ∀ q ∈ d.craters ++ d.basins, N r.cname = N q.cname → r.cname = q.cname)
    (out : CsvOut) (h : runMain g c d = .ok out) :
    ∃ out', runMain g c (renameData N sort d) = .ok out' ∧ out'.ice = out.ice ∧ out'.ej = out.ej ∧
      out'.strat = out.strat.map (fun p => (p.1, p.2.map (relabel (renameLabel N)))) := by
  obtain ⟨ns, hns⟩ : ∃ ns, ns = (d.craters ++ d.basins).map (·.cname) := ⟨_, rfl⟩
  have p1 : ∀ n ∈ ns, PlainName n := by
    intro n hn
    rw [hns] at hn
    obtain ⟨r, hr, rfl⟩ := List.mem_map.1 hn
    exact (hp r hr).1
  have p2 : ∀ n ∈ ns, PlainName (N n) := by
    intro n hn
    rw [hns] at hn
    obtain ⟨r, hr, rfl⟩ := List.mem_map.1 hn
    exact (hp r hr).2
  have p3 : ∀ n ∈ ns, ∀ m ∈ ns, N n = N m → n = m := by
    intro n hn m hm' e
    rw [hns] at hn hm'
    obtain ⟨r, hr, rfl⟩ := List.mem_map.1 hn
    obtain ⟨q, hq, rfl⟩ := List.mem_map.1 hm'
    exact hi r hr q hq e
  have key := runMain_rename (Q := fun a b => b = a.map (relabel (renameLabel N))) g c d hN sort hs
    (fun df s hdf => hns ▸ craterBasinList_names g c d hm df s hdf)
    (fun time age a b hab => makeStratCol_sources p1 p2 p3 _ _ _ time age a b hab)
  rw [h] at key
  cases h2 : runMain g c (renameData N sort d) with
  | error e => rw [h2] at key; exact key.elim
  | ok o =>
    rw [h2] at key
    refine ⟨o, rfl, key.1.symm, key.2.1.symm, ?_⟩
    have hd := key.2.2
    clear key h2 h
    generalize out.strat = x at hd ⊢
    generalize o.strat = y at hd ⊢
    induction hd with
    | nil => rfl
    | @cons p q x y hpq _ ih =>
      rw [ih, List.map_cons, hpq.1, ← hpq.2]

/-- **C156** For a stable sort by age the assumption on sorting holds for all names. -/
theorem C156_stable (N : String → String) (df : CraterTable) :
    (df.map (renameRow N)).mergeSort (fun a b => decide (b.age ≤ a.age)) =
      (df.mergeSort (fun a b => decide (b.age ≤ a.age))).map (renameRow N) := by
  rw [List.map_mergeSort (s := fun a b => decide (b.age ≤ a.age))]
  intro a _ b _
  rfl

/-- **C156** Which names are plain matters: with a crater named "Ice" its layer is merged with the
layers of ice around it. -/
theorem C156_named_ice :
    (makeStratCol (K := ℚ) (1 / 10) 0 false 0 [⟨3, 5, 0, ""⟩, ⟨2, 0, 4, "Haworth"⟩, ⟨1, 6, 0, ""⟩]).map
        (List.map (fun r => (r.label, r.ice, r.ejecta))) =
      .ok [("Ice", 5, 0), ("Haworth", 0, 4), ("Ice", 6, 0)] ∧
    (makeStratCol (K := ℚ) (1 / 10) 0 false 0 [⟨3, 5, 0, ""⟩, ⟨2, 0, 4, "Ice"⟩, ⟨1, 6, 0, ""⟩]).map
        (List.map (fun r => (r.label, r.ice, r.ejecta))) = .ok [("Ice", 11, 4)] := by
  decide +kernel

/-- **C156** Names must remain different: two craters of the same name become one layer. -/
theorem C156_same_name :
    (makeStratCol (K := ℚ) (1 / 10) 0 false 0 [⟨2, 0, 4, "Haworth"⟩, ⟨1, 6, 3, "Shoemaker"⟩]).map
        (List.map (fun r => (r.label, r.ice, r.ejecta))) = .ok [("Haworth", 0, 4), ("Shoemaker", 6, 3)] ∧
    (makeStratCol (K := ℚ) (1 / 10) 0 false 0 [⟨2, 0, 4, "Haworth"⟩, ⟨1, 6, 3, "Haworth"⟩]).map
        (List.map (fun r => (r.label, r.ice, r.ejecta))) = .ok [("Haworth", 6, 7)] := by
  decide +kernel

/-- Another name for one basin. -/
def unImbrium (n : String) : String := if n = "Imbrium" then "Basin 1" else n

theorem plainName_dec (s : String) (h : (decide (s ≠ "") && decide (',' ∉ s.toList) && decide (s ≠ "Ice") &&
    decide (s ≠ "Minor source(s)") && decide (s ≠ "Formation age")) = true) : PlainName s := by
  simp only [Bool.and_eq_true, decide_eq_true_eq] at h
  exact ⟨h.1.1.1.1, h.1.1.1.2, h.1.1.2, h.1.2, h.2⟩

/-- C156 applies to the shipped files with Imbrium renamed. -/
example (nk : List (ℝ × ℝ)) (sortNk : List (ℝ × ℝ) → List (ℝ × ℝ)) (setOrder : List (List Char) → List (List Char))
    (g : Gen σ) (seed : Nat) (out : CsvOut)
    (h : runMain g (RunCfg.default seed) (shippedData nk
      (fun df => df.mergeSort (fun a b => decide (b.age ≤ a.age))) sortNk setOrder) = .ok out) :
    ∃ out', runMain g (RunCfg.default seed) (renameData unImbrium
        (fun df => df.mergeSort (fun a b => decide (b.age ≤ a.age))) (shippedData nk
        (fun df => df.mergeSort (fun a b => decide (b.age ≤ a.age))) sortNk setOrder)) = .ok out' ∧
      out'.ice = out.ice ∧ out'.ej = out.ej ∧
      out'.strat = out.strat.map (fun p => (p.1, p.2.map (relabel (renameLabel unImbrium)))) := by
  have hrows : ∀ (P : String → Prop), (∀ q ∈ craterFile ++ basinFile, P q.cname) →
      ∀ r ∈ (shippedData nk (fun df => df.mergeSort (fun a b => decide (b.age ≤ a.age))) sortNk setOrder).craters ++
        (shippedData nk (fun df => df.mergeSort (fun a b => decide (b.age ≤ a.age))) sortNk setOrder).basins,
        P r.cname := by
    intro P hP r hr
    rw [show (shippedData nk (fun df => df.mergeSort (fun a b => decide (b.age ≤ a.age))) sortNk setOrder).craters ++
        (shippedData nk (fun df => df.mergeSort (fun a b => decide (b.age ≤ a.age))) sortNk setOrder).basins =
        (craterFile ++ basinFile).map FileRow.read by rw [List.map_append]; rfl] at hr
    obtain ⟨q, hq, rfl⟩ := List.mem_map.1 hr
    exact hP q hq
  refine C156_tables g _ _ ?_ _ (C156_stable unImbrium) ?_ ?_ ?_ out h
  · intro t ht n
    have h1 : t ≠ "Imbrium" ∧ t ≠ "Basin 1" := by
      have : ∀ t ∈ (RunCfg.default seed).coldtrap_names, t ≠ "Imbrium" ∧ t ≠ "Basin 1" := by
        change ∀ t ∈ (RunCfg.default 1).coldtrap_names, t ≠ "Imbrium" ∧ t ≠ "Basin 1"
        decide +kernel
      exact this t ht
    unfold unImbrium
    split
    · rename_i e
      subst e
      exact ⟨fun e => absurd e.symm h1.2, fun e => absurd e.symm h1.1⟩
    · exact Iff.rfl
  · intro df r hr
    exact List.mem_mergeSort.1 hr
  · refine hrows (fun n => PlainName n ∧ PlainName (unImbrium n)) ?_
    intro q hq
    have : ∀ q ∈ craterFile ++ basinFile, ∀ n ∈ [q.cname, unImbrium q.cname],
        (decide (n ≠ "") && decide (',' ∉ n.toList) && decide (n ≠ "Ice") &&
        decide (n ≠ "Minor source(s)") && decide (n ≠ "Formation age")) = true := by decide +kernel
    exact ⟨plainName_dec _ (this q hq _ (by simp)), plainName_dec _ (this q hq _ (by simp))⟩
  · have : ∀ q ∈ craterFile ++ basinFile, ∀ r ∈ craterFile ++ basinFile,
        unImbrium q.cname = unImbrium r.cname → q.cname = r.cname := by decide +kernel
    intro r hr q hq
    exact hrows (fun n => unImbrium n = unImbrium q.cname → n = q.cname)
      (fun q' hq' => hrows (fun m => unImbrium q'.cname = unImbrium m → q'.cname = m) (this q' hq') q hq) r hr

end MoonPIES
