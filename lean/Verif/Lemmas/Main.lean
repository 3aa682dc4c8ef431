import Verif.Lemmas.Impact
import Verif.Lemmas.PosInterp
import Verif.Props.Run
import Verif.Props.Strat
import Verif.Props.Thermal
import Verif.Props.Bsed

/-!
# The stages of a run
-/

namespace MoonPIES

open Spec

variable {σ : Type}

/-! ## Crater table -/

theorem newAges_rest {β : Type} (ts : ℝ) (z : Nat → ℝ) : ∀ (rows : List (CraterAge ℝ β)) (k : Nat)
    (mid : List (CraterAge ℝ β)), newAges ts z k rows = .ok mid →
    mid.map (·.rest) = rows.map (·.rest)
  | [], k, mid, h => by cases h; rfl
  | r :: rows, k, mid, h => by
    unfold newAges at h
    cases h1 : newAge ts (z k) r with
    | error e => rw [h1] at h; cases h
    | ok r' =>
      cases h2 : newAges ts z (k + 1) rows with
      | error e => rw [h1, h2] at h; cases h
      | ok rest =>
        rw [h1, h2] at h
        cases h
        have hr : r'.rest = r.rest := by
          unfold newAge at h1
          split at h1
          · cases h1
          · split at h1
            · cases h1; rfl
            · cases h1
        rw [List.map_cons, List.map_cons, hr, newAges_rest ts z rows (k + 1) rest h2]

/-- The rows before their ages are randomized. -/
noncomputable def rawTable (g : Gen σ) (c : RunCfg) (d : RunData) (s : σ) : CraterTable :=
  d.craters.map (readRow false "no") ++
    List.zipWith (fun r icy => readRow true icy r) d.basins
      (icyBasins c.imp (g.random d.basins.length s).1)

theorem craterBasinList_inv (g : Gen σ) (c : RunCfg) (d : RunData) (s s' : σ) (df : CraterTable)
    (h : craterBasinList g c d s = .ok (df, s')) :
    ∃ z mid, newAges c.timestep z 0 (rawTable g c d s) = .ok mid ∧ df = d.sortAges mid := by
  unfold craterBasinList at h
  simp only [] at h
  obtain ⟨z, hz⟩ : ∃ z, z = g.truncnormEach ((rawTable g c d s).map (fun r => (truncA r, truncB r)))
    (g.random d.basins.length s).2 := ⟨_, rfl⟩
  change (randomizeAges d.sortAges c.timestep (fun i => (g.truncnormEach ((rawTable g c d s).map
    (fun r => (truncA r, truncB r))) (g.random d.basins.length s).2).1.getD i 0)
    (rawTable g c d s)).bind _ = _ at h
  rw [← hz] at h
  unfold randomizeAges at h
  cases h1 : newAges c.timestep (fun i => z.1.getD i 0) 0 (rawTable g c d s) with
  | error e => rw [h1] at h; cases h
  | ok mid =>
    rw [h1] at h
    injection h with h
    injection h with h _
    exact ⟨_, mid, h1, h.symm⟩

theorem craterBasinList_rad (g : Gen σ) {c : RunCfg} {d : RunData} (hd : PhysicalData c d) (s s' : σ)
    (df : CraterTable) (h : craterBasinList g c d s = .ok (df, s')) :
    ∀ r ∈ df, r.rest.crater.isbasin = true → 0 < r.rest.crater.rad := by
  obtain ⟨z, mid, h1, rfl⟩ := craterBasinList_inv g c d s s' df h
  intro r hr hb
  have hm : r ∈ mid := (hd.sorted mid).1.mem_iff.1 hr
  have hrest : r.rest ∈ (rawTable g c d s).map (·.rest) := by
    rw [← newAges_rest _ _ _ _ _ h1]; exact List.mem_map_of_mem hm
  obtain ⟨q, hq, e⟩ := List.mem_map.1 hrest
  rw [← e] at hb ⊢
  unfold rawTable at hq
  rcases List.mem_append.1 hq with hq | hq
  · obtain ⟨raw, _, rfl⟩ := List.mem_map.1 hq
    exact absurd hb (by simp [readRow])
  · rw [← List.map_uncurry_zip_eq_zipWith] at hq
    obtain ⟨p, hp, rfl⟩ := List.mem_map.1 hq
    have := hd.basins _ (List.of_mem_zip hp).1
    simp only [Function.uncurry, readRow]
    positivity

/-! ## Columns -/

theorem column_spec {α : Type} {n j : Nat} (hj : j < n) : ∀ m : List (List α),
    (∀ row ∈ m, row.length = n) → (column m j).length = m.length ∧
      ∀ (i : Nat) row, m[i]? = some row → (column m j)[i]? = row[j]?
  | [], _ => by simp [column]
  | row :: m, h => by
    have hl := h row (by simp)
    obtain ⟨h1, h2⟩ := column_spec hj m (fun r hr => h r (by simp [hr]))
    have e : column (row :: m) j = row[j]'(by omega) :: column m j := by
      unfold column
      rw [List.filterMap_cons, List.getElem?_eq_getElem (by omega)]
    rw [e]
    refine ⟨by simp [h1], ?_⟩
    intro i r hr
    cases i with
    | zero => simp only [List.getElem?_cons_zero, Option.some.injEq] at hr; subst hr
              simp [List.getElem?_eq_getElem (show j < row.length by omega)]
    | succ i => simpa using h2 i r (by simpa using hr)

theorem mem_column {α : Type} {m : List (List α)} {j : Nat} {x : α} (h : x ∈ column m j) :
    ∃ row ∈ m, x ∈ row := by
  unfold column at h
  obtain ⟨row, h1, h2⟩ := List.mem_filterMap.1 h
  exact ⟨row, h1, List.mem_of_getElem? h2⟩

theorem buildCols_spec (ice : List (List ℝ)) (ej : List (List ℝ × List String)) :
    ∀ (names : List String) (i : Nat) (acc cols : PyDict (StratCol ℝ)), names.Nodup →
    buildCols ice ej i names acc = .ok cols →
    (∀ (k : Nat) name, names[k]? = some name → ∃ e, ej[i + k]? = some e ∧
      cols.get name = .ok { ice := column ice (i + k), ej := e.1, src := e.2 }) ∧
    (∀ name, name ∉ names → cols.get name = acc.get name) ∧
    ∀ p ∈ cols, p ∈ acc ∨ ∃ k e, k < names.length ∧ ej[i + k]? = some e ∧
      p.2 = { ice := column ice (i + k), ej := e.1, src := e.2 }
  | [], i, acc, cols, _, h => by
    cases h
    exact ⟨by simp, fun _ _ => rfl, fun p hp => Or.inl hp⟩
  | name :: rest, i, acc, cols, hnd, h => by
    unfold buildCols at h
    cases he : pyGet ej i with
    | error e => rw [he] at h; cases h
    | ok e =>
      have he' := pyGet_inv he
      rw [he] at h
      obtain ⟨h1, h2, h3⟩ := buildCols_spec ice ej rest (i + 1) _ cols hnd.of_cons h
      have hni : name ∉ rest := (List.nodup_cons.1 hnd).1
      refine ⟨?_, ?_, ?_⟩
      · intro k n hk
        cases k with
        | zero =>
          simp only [List.getElem?_cons_zero, Option.some.injEq] at hk
          subst hk
          refine ⟨e, he', ?_⟩
          rw [h2 _ hni, PyDict.get_set_self]
          rfl
        | succ k =>
          obtain ⟨e', h4, h5⟩ := h1 k n (by simpa using hk)
          have : i + (k + 1) = i + 1 + k := by omega
          rw [this]
          exact ⟨e', h4, h5⟩
      · intro n hn
        rw [List.mem_cons, not_or] at hn
        rw [h2 n hn.2, PyDict.get_set_ne _ _ (Ne.symm hn.1)]
      · intro p hp
        rcases h3 p hp with h4 | ⟨k, e', h4, h5, h6⟩
        · rcases mem_set h4 with h4 | h4
          · exact Or.inl h4
          · exact Or.inr ⟨0, e, by simp, he', by rw [h4]; rfl⟩
        · refine Or.inr ⟨k + 1, e', by simpa using h4, ?_, ?_⟩ <;>
          · rw [show i + (k + 1) = i + 1 + k by omega]; assumption

/-! ## Ballistic sedimentation -/

theorem knownAt_some {l : List (Option ℝ)} {k a : Nat} {v : ℝ} (h : knownAt l k = some (a, v)) :
    l[a]? = some (some v) := by
  unfold knownAt at h
  split at h
  · rename_i w hw
    simp only [Option.some.injEq, Prod.mk.injEq] at h
    obtain ⟨rfl, rfl⟩ := h
    exact hw
  · cases h

theorem prevKnown_inv {l : List (Option ℝ)} {i a : Nat} {v : ℝ} (h : prevKnown l i = some (a, v)) :
    l[a]? = some (some v) ∧ a ≤ i := by
  unfold prevKnown at h
  obtain ⟨k, hk, h1⟩ := List.exists_of_findSome?_eq_some h
  have h2 := knownAt_some h1
  refine ⟨h2, ?_⟩
  have h3 : a = k := by
    unfold knownAt at h1
    split at h1
    · simp only [Option.some.injEq, Prod.mk.injEq] at h1; exact h1.1.symm
    · cases h1
  simp only [List.mem_reverse, List.mem_range] at hk
  omega

theorem nextKnown_inv {l : List (Option ℝ)} {i a : Nat} {v : ℝ} (h : nextKnown l i = some (a, v)) :
    l[a]? = some (some v) ∧ i ≤ a := by
  unfold nextKnown at h
  obtain ⟨k, hk, h1⟩ := List.exists_of_findSome?_eq_some h
  have h2 := knownAt_some h1
  refine ⟨h2, ?_⟩
  have h3 : a = k := by
    unfold knownAt at h1
    split at h1
    · simp only [Option.some.injEq, Prod.mk.injEq] at h1; exact h1.1.symm
    · cases h1
  simp only [List.mem_range'] at hk
  obtain ⟨x, _, hx⟩ := hk
  omega

/-- Filling gaps never leaves the range of the known values. -/
theorem posInterp_range (l : List (Option ℝ)) (lo hi : ℝ) (h : ∀ v, some v ∈ l → lo ≤ v ∧ v ≤ hi)
    (y : ℝ) (hy : some y ∈ posInterp l) : lo ≤ y ∧ y ≤ hi := by
  unfold posInterp at hy
  obtain ⟨i, hi'⟩ := List.mem_iff_getElem?.1 hy
  rw [List.getElem?_mapIdx, Option.map_eq_some_iff] at hi'
  obtain ⟨_, _, hy'⟩ := hi'
  cases hp : prevKnown l i with
  | none => rw [hp] at hy'; simp at hy'
  | some p =>
    obtain ⟨a, v⟩ := p
    obtain ⟨ha, hai⟩ := prevKnown_inv hp
    have hv := h v (List.mem_of_getElem? ha)
    cases hn : nextKnown l i with
    | none =>
      rw [hp, hn] at hy'
      simp only [Option.some.injEq] at hy'
      rw [← hy']; exact hv
    | some q =>
      obtain ⟨b, w⟩ := q
      obtain ⟨hb, hib⟩ := nextKnown_inv hn
      obtain ⟨y', h1, h2⟩ := posInterp_between l a i b v w lo hi ha hb hai hib
        (fun k u _ _ hk => h u (List.mem_of_getElem? hk))
      rw [hp, hn] at hy'
      unfold posInterp at h1
      rw [List.getElem?_mapIdx, Option.map_eq_some_iff] at h1
      obtain ⟨_, _, h1⟩ := h1
      rw [hp, hn] at h1
      rw [h1, Option.some.injEq] at hy'
      rw [← hy']; exact h2

theorem meltInterp_range (tbl : MeltTable ℝ) (lo hi : ℝ)
    (h : ∀ m t v, tbl.at m t = some v → lo ≤ v ∧ v ≤ hi) (mrs temps : List ℝ) :
    ∀ row ∈ meltInterp tbl mrs temps, ∀ v, some v ∈ row → lo ≤ v ∧ v ≤ hi := by
  intro row hrow v hv
  unfold meltInterp at hrow
  obtain ⟨i, _, rfl⟩ := List.mem_map.1 hrow
  refine posInterp_range _ lo hi ?_ v hv
  intro w hw
  obtain ⟨col, hcol, e⟩ := List.mem_map.1 hw
  obtain ⟨t, _, rfl⟩ := List.mem_map.1 hcol
  have hm : some w ∈ posInterp (mrs.map (fun m => tbl.at m t)) := by
    cases hx : (posInterp (mrs.map (fun m => tbl.at m t)))[i]? with
    | none => rw [hx] at e; simp at e
    | some x => rw [hx] at e; simp only [Option.join_some] at e; rw [← e]; exact List.mem_of_getElem? hx
  refine posInterp_range _ lo hi ?_ w hm
  intro u hu
  obtain ⟨m, _, e⟩ := List.mem_map.1 hu
  exact h m t u e

theorem getMeltFrac_range (tbl : MeltTable ℝ)
    (h : ∀ m t v, tbl.at m t = some v → 0 ≤ v ∧ v ≤ 1) (queries : List (List (ℝ × Option ℝ)))
    (out : List (List (Option ℝ))) (ho : getMeltFrac tbl queries = .ok out) :
    out.length = queries.length ∧ ∀ col ∈ out, ∀ v, some v ∈ col → 0 ≤ v ∧ v ≤ 1 := by
  unfold getMeltFrac at ho
  cases h1 : insertUniqueInRange (queries.flatten.map (fun q => some q.1)) tbl.temps with
  | error e => rw [h1] at ho; cases ho
  | ok temps =>
    cases h2 : insertUniqueInRange (queries.flatten.map (fun q => q.2)) (tbl.rows.map (·.1)) with
    | error e => rw [h1] at ho; simp only [bind, Except.bind] at ho; rw [h2] at ho; cases ho
    | ok mrs =>
      rw [h1] at ho; simp only [bind, Except.bind] at ho; rw [h2] at ho
      simp only [] at ho
      obtain ⟨hl, hi⟩ := mapM_ok_inv _ _ _ ho
      refine ⟨hl, ?_⟩
      intro col hcol v hv
      obtain ⟨i, hcol⟩ := List.mem_iff_getElem?.1 hcol
      have hil : i < queries.length := by rw [← hl]; exact (List.getElem?_eq_some_iff.1 hcol).1
      obtain ⟨b, hb, hb'⟩ := hi i _ (List.getElem?_eq_getElem hil)
      rw [hcol] at hb; cases hb
      obtain ⟨hl2, hi2⟩ := mapM_ok_inv _ _ _ hb'
      obtain ⟨k, hk⟩ := List.mem_iff_getElem?.1 hv
      have hkl : k < (queries[i]).length := by rw [← hl2]; exact (List.getElem?_eq_some_iff.1 hk).1
      obtain ⟨b, hb, hb2⟩ := hi2 k _ (List.getElem?_eq_getElem hkl)
      rw [hk] at hb; cases hb
      split at hb2
      · injection hb2 with hb2; injection hb2 with hb2; rw [← hb2]; norm_num
      · unfold meltLoc at hb2
        split at hb2
        · rename_i hrow _ _
          split at hb2
          · rename_i w hw
            injection hb2 with hb2
            subst hb2
            exact meltInterp_range tbl 0 1 h mrs temps _ (List.mem_of_getElem? hrow) v
              (List.mem_of_getElem? hw)
          · cases hb2
        · cases hb2

theorem bsedColumn_range (cfg : BsedCfg ℝ) (time : List ℝ) (hne : time ≠ []) (ages thick : List ℝ)
    (ratios melts : List (Option ℝ)) (hl : 0 ≤ cfg.ballistic_sed_frac_lost ∧
      cfg.ballistic_sed_frac_lost ≤ 1) (hm : ∀ v, some v ∈ melts → 0 ≤ v ∧ v ≤ 1) :
    ∃ dm, bsedColumn cfg time ages thick ratios melts = .ok dm ∧ dm.1.length = time.length ∧
      dm.2.length = time.length ∧ ∀ x ∈ dm.2, 0 ≤ x ∧ x ≤ 1 := by
  obtain ⟨o1, a1, a2, a3⟩ := thick_time cfg.rtol time hne ages thick
  obtain ⟨o2, b1, b2, b3⟩ := C16_maximum cfg.rtol time hne (ages.zip ratios)
  obtain ⟨o3, c1, c2, c3⟩ := C16_maximum cfg.rtol time hne (ages.zip melts)
  refine ⟨(List.zipWith (· * ·) o1 o2, o3.map (fun m => m * cfg.ballistic_sed_frac_lost)),
      ?_, ?_, ?_, ?_⟩
  · unfold bsedColumn
    simp only [bind, Except.bind]
    rw [a1]; simp only []
    rw [b1]; simp only []
    rw [c1]
  · simp [a2, b2]
  · simp [c2]
  · intro x hx
    obtain ⟨m, hm', rfl⟩ := List.mem_map.1 hx
    obtain ⟨i, hi⟩ := List.mem_iff_getElem?.1 hm'
    have h0 : 0 ≤ m := ((c3 i m hi m).1 le_rfl).1
    have h1 : m ≤ 1 := (c3 i m hi 1).2 ⟨by norm_num, fun a v hav _ _ =>
      (hm v (List.of_mem_zip hav).2).2⟩
    exact ⟨mul_nonneg h0 hl.1, by nlinarith [hl.1, hl.2]⟩

theorem bsedArrays_ok_inv (c : RunCfg) (d : RunData) (hd : PhysicalData c d) (time : List ℝ)
    (hne : time ≠ []) (df : CraterTable) (dists : List (List (Option ℝ))) (thick : List (List ℝ))
    (bd bf : List (List ℝ)) (h : bsedArrays c d time df dists thick = .ok (bd, bf)) :
    bd.length = time.length ∧ bf.length = time.length ∧
    (∀ row ∈ bd, row.length = c.coldtrap_names.length) ∧
    (∀ row ∈ bf, row.length = c.coldtrap_names.length) ∧
    ∀ row ∈ bf, ∀ x ∈ row, 0 ≤ x ∧ x ≤ 1 := by
  unfold bsedArrays at h
  simp only [bind, Except.bind] at h
  obtain ⟨traps, htr⟩ : ∃ t, t = (List.range c.coldtrap_names.length).map
    (fun i => (column dists i, column thick i)) := ⟨_, rfl⟩
  rw [← htr] at h
  have htl : traps.length = c.coldtrap_names.length := by rw [htr]; simp
  have key : ∀ out, bsedDepth c.bsed d.melt (mixingRatio c.mixing_ratio_petro c.mixing_ratio_a
      c.mixing_ratio_b) time (df.map (·.age)) (df.map (·.rest.crater.isbasin)) traps = .ok out →
      out.length = traps.length ∧ ∀ p ∈ out, p.1.length = time.length ∧ p.2.length = time.length ∧
        ∀ x ∈ p.2, 0 ≤ x ∧ x ≤ 1 := by
    intro out ho
    by_cases hb : c.bsed.ballistic_sed = true
    · unfold bsedDepth at ho
      rw [if_neg (by simp [hb])] at ho
      simp only [bind, Except.bind] at ho
      split at ho
      · cases ho
      · rename_i melts hmelts
        obtain ⟨hml, hmr⟩ := getMeltFrac_range d.melt hd.melt _ _ hmelts
        obtain ⟨hl, hi⟩ := mapM_ok_inv _ _ _ ho
        have hl' : out.length = traps.length := by rw [hl]; simp [hml]
        refine ⟨hl', ?_⟩
        intro p hp
        obtain ⟨i, hp⟩ := List.mem_iff_getElem?.1 hp
        have hil : i < (traps.zip melts).length := by
          rw [← hl]; exact (List.getElem?_eq_some_iff.1 hp).1
        obtain ⟨b, hb1, hb2⟩ := hi i _ (List.getElem?_eq_getElem hil)
        rw [hp] at hb1; cases hb1
        have hz : (traps.zip melts)[i] ∈ traps.zip melts := List.getElem_mem hil
        obtain ⟨dm, e1, e2, e3, e4⟩ := bsedColumn_range c.bsed time hne (df.map (·.age))
          (traps.zip melts)[i].1.2 ((traps.zip melts)[i].1.1.map (mixingRatio c.mixing_ratio_petro
            c.mixing_ratio_a c.mixing_ratio_b)) (traps.zip melts)[i].2 hd.lost
          (hmr _ (List.of_mem_zip (a := (traps.zip melts)[i].1) (b := (traps.zip melts)[i].2) hz).2)
        rw [e1] at hb2
        cases hb2
        exact ⟨e2, e3, e4⟩
    · obtain ⟨out', h1, h2, h3⟩ := C51_off c.bsed d.melt (mixingRatio c.mixing_ratio_petro
        c.mixing_ratio_a c.mixing_ratio_b) time (df.map (·.age))
        (df.map (·.rest.crater.isbasin)) traps (by simpa using hb)
      rw [h1] at ho
      cases ho
      refine ⟨h2, fun p hp => ⟨(h3 p hp).1, (h3 p hp).2.1, fun x hx => ?_⟩⟩
      rw [(h3 p hp).2.2.2 x hx]; norm_num
  split at h
  · cases h
  · rename_i out hout
    obtain ⟨k1, k2⟩ := key out hout
    cases h
    have r1 : ∀ row ∈ out.map (·.1), row.length = time.length := by
      intro row hr; obtain ⟨p, hp, rfl⟩ := List.mem_map.1 hr; exact (k2 p hp).1
    have r2 : ∀ row ∈ out.map (·.2), row.length = time.length := by
      intro row hr; obtain ⟨p, hp, rfl⟩ := List.mem_map.1 hr; exact (k2 p hp).2.1
    refine ⟨by simp, by simp, ?_, ?_, ?_⟩
    · intro row hr
      obtain ⟨i, hi, rfl⟩ := List.mem_map.1 hr
      rw [(column_spec (List.mem_range.1 hi) _ r1).1, List.length_map, k1, htl]
    · intro row hr
      obtain ⟨i, hi, rfl⟩ := List.mem_map.1 hr
      rw [(column_spec (List.mem_range.1 hi) _ r2).1, List.length_map, k1, htl]
    · intro row hr x hx
      obtain ⟨i, hi, rfl⟩ := List.mem_map.1 hr
      obtain ⟨row, h1, h2⟩ := mem_column hx
      obtain ⟨p, hp, rfl⟩ := List.mem_map.1 h1
      exact (k2 p hp).2.2 x h2

/-! ## Stages -/

theorem liftPy_ok {α : Type} {x : Except PyErr α} {a : α} (h : liftPy x = .ok a) : x = .ok a := by
  cases x with
  | ok b => cases h; rfl
  | error e => cases h

theorem bind_ok_inv {ε α β : Type} {x : Except ε α} {f : α → Except ε β} {b : β}
    (h : x.bind f = .ok b) : ∃ a, x = .ok a ∧ f a = .ok b := by
  cases x with
  | ok a => exact ⟨a, rfl, h⟩
  | error e => cases h

/-- The intermediate results of the first part of a successful run. -/
theorem setup_inv (g : Gen σ) (c : RunCfg) (d : RunData) (st : Setup σ)
    (h : setup g c d = .ok st) :
    ∃ s1 s2 dists thick, getTimeArray c.timestart c.timeend c.timestep = .ok st.time ∧
      craterBasinList g c d (g.init c.seed) = .ok (st.df, s1) ∧
      coldtrapDists c.ej (st.df.map (·.rest.crater)) c.coldtrap_names = .ok dists ∧
      thicknessMatrix c st.df dists = .ok thick ∧
      initStratCols g c d st.time st.df thick s1 = .ok (st.cols, s2) ∧
      bsedArrays c d st.time st.df dists thick = .ok (st.bsedDepth, st.bsedFrac) ∧
      st.overturn = overturnDepth c.overturn st.time := by
  unfold setup at h
  obtain ⟨time, h1, h⟩ := bind_ok_inv h
  obtain ⟨⟨df, s1⟩, h2, h⟩ := bind_ok_inv h
  obtain ⟨dists, h3, h⟩ := bind_ok_inv h
  obtain ⟨thick, h4, h⟩ := bind_ok_inv h
  obtain ⟨⟨cols, s2⟩, h5, h⟩ := bind_ok_inv h
  obtain ⟨⟨bd, bf⟩, h6, h⟩ := bind_ok_inv h
  injection h with h
  subst h
  exact ⟨s1, s2, dists, thick, liftPy_ok h1, liftPy_ok h2, liftPy_ok h3, h4, liftPy_ok h5,
    liftPy_ok h6, rfl⟩

theorem initStratCols_inv (g : Gen σ) (c : RunCfg) (d : RunData) (time : List ℝ)
    (df : CraterTable) (thick : List (List ℝ)) (s s' : σ) (cols : PyDict (StratCol ℝ))
    (h : initStratCols g c d time df thick s = .ok (cols, s')) :
    ∃ ej ice, (List.range c.coldtrap_names.length).mapM (fun i =>
        ejectaThicknessTime RunCfg.rtol c.thickness_min time (ejRows df (column thick i))) = .ok ej ∧
      iceCols g c d df time s = .ok (ice, s') ∧ buildCols ice ej 0 c.coldtrap_names [] = .ok cols := by
  unfold initStratCols at h
  obtain ⟨ej, h1, h⟩ := bind_ok_inv h
  obtain ⟨⟨ice, s2⟩, h2, h⟩ := bind_ok_inv h
  obtain ⟨cols', h3, h⟩ := bind_ok_inv h
  injection h with h
  injection h with ha hb
  subst ha; subst hb
  exact ⟨ej, ice, h1, h2, h3⟩

theorem ejectaThicknessTime_ne {tol tm : ℝ} {time : List ℝ} {rows : List (EjRow ℝ)}
    {o : List ℝ × List String} (h : ejectaThicknessTime tol tm time rows = .ok o) :
    time ≠ [] ∧ o.1.length = time.length ∧ o.2.length = time.length := by
  have hne : time ≠ [] := by
    rintro rfl
    cases h
  unfold ejectaThicknessTime at h
  obtain ⟨thick, h1, h⟩ := bind_ok_inv h
  obtain ⟨srcs, h2, h⟩ := bind_ok_inv h
  injection h with h
  subst h
  obtain ⟨o1, a1, a2, _⟩ := ages2time_spec tol time hne
    (rows.map (fun r => (r.age, some r.thick))) nansum (0 : ℝ)
  obtain ⟨o2, b1, b2, _⟩ := ages2time_spec tol time hne
    (rows.map (fun r => (r.age, if r.thick > tm then r.cname ++ "," else "")))
    (fun (acc s : String) => acc ++ s) ""
  rw [a1] at h1; rw [b1] at h2
  injection h1 with h1; injection h2 with h2
  subst h1; subst h2
  exact ⟨hne, a2, by simpa using b2⟩

/-- Columns before the main loop: one per cold trap, of the length of the time array, holding the
delivered ice. -/
theorem setup_cols (g : Gen σ) (hg : LawfulGen g) {c : RunCfg} {d : RunData} (hc : PhysicalCfg c)
    (hd : PhysicalData c d) (hnd : c.coldtrap_names.Nodup) (hne : c.coldtrap_names ≠ [])
    (st : Setup σ) (h : setup g c d = .ok st) :
    st.time ≠ [] ∧ ∃ s s' rows, craterBasinList g c d (g.init c.seed) = .ok (st.df, s) ∧
      iceCols g c d st.df st.time s = .ok (rows, s') ∧ rows.length = st.time.length ∧
      (∀ row ∈ rows, NNArr c.coldtrap_names.length row) ∧
      (∀ (j : Nat) name, c.coldtrap_names[j]? = some name → ∃ col, st.cols.get name = .ok col ∧
        col.ice = column rows j) ∧
      ∀ p ∈ st.cols, p.2.ice.length = st.time.length ∧ p.2.ej.length = st.time.length ∧
        p.2.src.length = st.time.length ∧ ∀ x ∈ p.2.ice, 0 ≤ x := by
  obtain ⟨s1, s2, dists, thick, h1, h2, h3, h4, h5, h6, h7⟩ := setup_inv g c d st h
  obtain ⟨ej, ice, k1, k2, k3⟩ := initStratCols_inv g c d _ _ _ _ _ _ h5
  obtain ⟨el, ei⟩ := mapM_ok_inv _ _ _ k1
  have elem : ∀ (i : Nat) e, ej[i]? = some e → st.time ≠ [] ∧ e.1.length = st.time.length ∧
      e.2.length = st.time.length := by
    intro i e he
    have hil : i < (List.range c.coldtrap_names.length).length := by
      rw [← el]; exact (List.getElem?_eq_some_iff.1 he).1
    obtain ⟨b, hb1, hb2⟩ := ei i _ (List.getElem?_eq_getElem hil)
    rw [he] at hb1; cases hb1
    exact ejectaThicknessTime_ne hb2
  have hpos : 0 < c.coldtrap_names.length := List.length_pos_iff.2 hne
  have hel : ej.length = c.coldtrap_names.length := by rw [el]; simp
  have htime : st.time ≠ [] := (elem 0 _ (List.getElem?_eq_getElem (by omega))).1
  obtain ⟨rows, s3, i1, i2, i3⟩ := iceCols_ok g hg hc hd st.df
    (craterBasinList_rad g hd _ _ _ h2) st.time htime s1
  rw [i1] at k2
  injection k2 with k2
  injection k2 with k2 k2'
  subst k2; subst k2'
  obtain ⟨b1, b2, b3⟩ := buildCols_spec rows ej _ 0 [] st.cols hnd k3
  refine ⟨htime, s1, s3, rows, h2, i1, i2, i3, ?_, ?_⟩
  · intro j name hj
    obtain ⟨e, he, hcol⟩ := b1 j name hj
    exact ⟨_, hcol, by simp⟩
  · intro p hp
    rcases b3 p hp with h8 | ⟨k, e, hk, he, hp2⟩
    · cases h8
    · have hlen := elem _ _ he
      rw [hp2]
      simp only [Nat.zero_add]
      obtain ⟨c1, c2⟩ := column_spec hk rows (fun row hr => (i3 row hr).1)
      refine ⟨by rw [c1, i2], hlen.2.1, hlen.2.2, ?_⟩
      intro x hx
      obtain ⟨row, hr1, hr2⟩ := mem_column hx
      exact (i3 row hr1).2 x hr2

/-- The inputs of the main loop of a run are as the loop needs them. -/
theorem setup_wellFormed (g : Gen σ) (hg : LawfulGen g) {c : RunCfg} {d : RunData}
    (hc : PhysicalCfg c) (hd : PhysicalData c d) (hnd : c.coldtrap_names.Nodup)
    (hne : c.coldtrap_names ≠ []) (st : Setup σ) (h : setup g c d = .ok st) :
    WellFormed id c.coldtrap_names st.cols st.overturn st.bsedDepth st.bsedFrac := by
  obtain ⟨ht, s, s', rows, hdf, hice, hrl, hrn, hget, hall⟩ := setup_cols g hg hc hd hnd hne st h
  obtain ⟨s1, s2, dists, thick, h1, h2, h3, h4, h5, h6, h7⟩ := setup_inv g c d st h
  obtain ⟨b1, b2, b3, b4, b5⟩ := bsedArrays_ok_inv c d hd st.time ht st.df dists thick _ _ h6
  have hov : st.overturn.length = st.time.length := by
    rw [h7]; unfold overturnDepth; split <;> simp
  exact {
    hasTraps := by
      intro name hn
      obtain ⟨j, hj⟩ := List.mem_iff_getElem?.1 hn
      obtain ⟨col, hcol, _⟩ := hget j name hj
      exact List.mem_map.2 ⟨_, PyDict.mem_of_get hcol, rfl⟩
    iceLength := fun p hp => by rw [hov, (hall p hp).1]
    ejLength := fun p hp => by rw [hov, (hall p hp).2.1]
    iceNonneg := fun p hp => (hall p hp).2.2.2
    iceRepr := fun _ _ _ _ => rfl
    overturnRepr := fun _ _ => rfl
    depthRows := by rw [hov, b1]
    fracRows := by rw [hov, b2]
    depthCols := fun row hr => by rw [b3 row hr]
    fracCols := fun row hr => by rw [b4 row hr]
    depthRepr := fun _ _ _ _ => rfl
    fracRange := b5 }

/-! ## Tables -/

theorem formatLoop_inv (c : RunCfg) (time : List ℝ) (cols : PyDict (StratCol ℝ)) :
    ∀ (ages : List (String × ℝ)) (acc res : CsvOut × List (List String)),
    formatLoop c time cols ages acc = .ok res →
    ∀ name, (name ∈ ages.map (·.1) → ∃ age col table, (name, age) ∈ ages ∧ cols.get name = .ok col ∧
        makeStratCol c.thickness_min RunCfg.rtol c.strat_after_age age (toSteps time col) = .ok table ∧
        res.1.ice.get name = .ok col.ice ∧ res.1.ej.get name = .ok col.ej ∧
        res.1.strat.get name = .ok table) ∧
      (name ∉ ages.map (·.1) → res.1.ice.get name = acc.1.ice.get name ∧
        res.1.ej.get name = acc.1.ej.get name ∧ res.1.strat.get name = acc.1.strat.get name)
  | [], acc, res, h, name => by
    cases h
    exact ⟨by simp, fun _ => ⟨rfl, rfl, rfl⟩⟩
  | (n, age) :: rest, (out, srcs), res, h, name => by
    unfold formatLoop at h
    obtain ⟨col, h1, h⟩ := bind_ok_inv h
    obtain ⟨table, h2, h⟩ := bind_ok_inv h
    obtain ⟨i1, i2⟩ := formatLoop_inv c time cols rest _ res h name
    by_cases hr : name ∈ rest.map (·.1)
    · refine ⟨fun _ => ?_, fun hn => absurd (by simp [hr]) hn⟩
      obtain ⟨age', col', table', ha, hb⟩ := i1 hr
      exact ⟨age', col', table', List.mem_cons_of_mem _ ha, hb⟩
    · obtain ⟨j1, j2, j3⟩ := i2 hr
      by_cases hn : name = n
      · subst hn
        refine ⟨fun _ => ⟨age, col, table, by simp, h1, h2, ?_, ?_, ?_⟩, fun hn => absurd (by simp) hn⟩
        · rw [j1]; exact PyDict.get_set_self _ _ _
        · rw [j2]; exact PyDict.get_set_self _ _ _
        · rw [j3]; exact PyDict.get_set_self _ _ _
      · refine ⟨fun hm => absurd hm (by simp only [List.map_cons, List.mem_cons, not_or]
                                        exact ⟨hn, hr⟩), fun _ => ⟨?_, ?_, ?_⟩⟩
        · rw [j1]; exact PyDict.get_set_ne _ _ (Ne.symm hn)
        · rw [j2]; exact PyDict.get_set_ne _ _ (Ne.symm hn)
        · rw [j3]; exact PyDict.get_set_ne _ _ (Ne.symm hn)

theorem trapAges_inv (df : CraterTable) (names : List String) (ages : List (String × ℝ))
    (h : trapAges df names = .ok ages) :
    (∀ n ∈ names, n ∈ ages.map (·.1)) ∧
    ∀ p ∈ ages, p.1 ∈ names ∧ ∃ r ∈ df, r.rest.crater.cname = p.1 ∧ r.age = p.2 := by
  unfold trapAges at h
  obtain ⟨rows, h1, h⟩ := bind_ok_inv h
  injection h with h
  subst h
  obtain ⟨hl, hi⟩ := mapM_ok_inv _ _ _ h1
  constructor
  · intro n hn
    obtain ⟨i, hn⟩ := List.mem_iff_getElem?.1 hn
    obtain ⟨b, hb, hb'⟩ := hi i n hn
    unfold rowsNamed at hb'
    split at hb'
    · cases hb'
    · rename_i hf
      cases hb'
      cases hrows : df.filter (fun r => decide (r.rest.crater.cname = n)) with
      | nil => exact absurd hrows hf
      | cons r l =>
        rw [List.mem_map]
        refine ⟨(n, r.age), List.mem_flatten.2 ⟨_, List.mem_of_getElem? hb, ?_⟩, rfl⟩
        rw [hrows]; simp
  · intro p hp
    obtain ⟨l, hl', hp⟩ := List.mem_flatten.1 hp
    obtain ⟨i, hl'⟩ := List.mem_iff_getElem?.1 hl'
    have hil : i < names.length := by rw [← hl]; exact (List.getElem?_eq_some_iff.1 hl').1
    obtain ⟨b, hb, hb'⟩ := hi i _ (List.getElem?_eq_getElem hil)
    rw [hl'] at hb; cases hb
    unfold rowsNamed at hb'
    split at hb'
    · cases hb'
    · cases hb'
      obtain ⟨r, hr, rfl⟩ := List.mem_map.1 hp
      have := List.mem_filter.1 hr
      exact ⟨List.getElem_mem hil, r, this.1, by simpa using this.2, rfl⟩

theorem formatCsv_inv (c : RunCfg) (d : RunData) (time : List ℝ) (df : CraterTable)
    (cols : PyDict (StratCol ℝ)) (out : CsvOut) (h : formatCsv c d time df cols = .ok out) :
    c.coldtrap_names ≠ [] ∧
    ∀ name ∈ c.coldtrap_names, ∃ r ∈ df, r.rest.crater.cname = name ∧ ∃ col table,
      cols.get name = .ok col ∧
      makeStratCol c.thickness_min RunCfg.rtol c.strat_after_age r.age (toSteps time col) = .ok table ∧
      out.ice.get name = .ok col.ice ∧ out.ej.get name = .ok col.ej ∧
      out.strat.get name = .ok table := by
  unfold formatCsv at h
  obtain ⟨ages, h1, h⟩ := bind_ok_inv h
  obtain ⟨⟨o, srcs⟩, h2, h⟩ := bind_ok_inv h
  obtain ⟨t1, t2⟩ := trapAges_inv _ _ _ h1
  simp only [] at h
  split at h
  · cases h
  · rename_i hs
    injection h with h
    subst h
    constructor
    · intro hnil
      rw [hnil] at h1
      cases h1
      injection h2 with h2
      injection h2 with _ h2
      exact hs h2.symm
    · intro name hn
      obtain ⟨age, col, table, ha, hb1, hb2, hb3, hb4, hb5⟩ :=
        (formatLoop_inv c time cols ages _ _ h2 name).1 (t1 name hn)
      obtain ⟨_, r, hr1, hr2, hr3⟩ := t2 _ ha
      exact ⟨r, hr1, hr2, col, table, hb1, by rw [hr3]; exact hb2, hb3, hb4, hb5⟩

end MoonPIES
