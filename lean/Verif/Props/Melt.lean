import Verif.Lemmas.PosInterp
import Verif.Lemmas.Except
import Verif.Props.AgesToTime

/-!
# C50: melt fraction lookup
-/

namespace MoonPIES

set_option linter.unusedSectionVars false

variable {K : Type} [Field K] [LinearOrder K] [IsStrictOrderedRing K]

/-- Spec: the labels of the table and its entries: every cell of the file is filled. -/
def MeltTable.Complete (tbl : MeltTable K) : Prop :=
  ∀ m ∈ tbl.rows.map (·.1), ∀ t ∈ tbl.temps, ∃ v, tbl.at m t = some v

/-- Spec: `m0 ≤ m ≤ m1` are rows of the table and `t0 ≤ t ≤ t1` columns: the query lies in that
block. -/
structure InBlock (tbl : MeltTable K) (m t m0 m1 t0 t1 : K) : Prop where
  hm0 : m0 ∈ tbl.rows.map (·.1)
  hm1 : m1 ∈ tbl.rows.map (·.1)
  ht0 : t0 ∈ tbl.temps
  ht1 : t1 ∈ tbl.temps
  m0le : m0 ≤ m
  lem1 : m ≤ m1
  t0le : t0 ≤ t
  let1 : t ≤ t1

theorem MeltTable.at_mem (tbl : MeltTable K) (m t v : K) (h : tbl.at m t = some v) :
    m ∈ tbl.rows.map (·.1) ∧ t ∈ tbl.temps := by
  unfold MeltTable.at at h
  cases hr : tbl.rows.find? (fun r => decide (r.1 = m)) with
  | none => rw [hr] at h; cases h
  | some r =>
    rw [hr] at h
    simp only [Option.map_eq_some_iff] at h
    obtain ⟨c, hc, _⟩ := h
    have h1 := List.find?_some hr
    have h2 := List.mem_of_find?_eq_some hr
    have h3 := List.find?_some hc
    have h4 := List.mem_of_find?_eq_some hc
    simp only [decide_eq_true_eq] at h1 h3
    refine ⟨List.mem_map.2 ⟨r, h2, h1⟩, ?_⟩
    rw [← h3]
    exact (List.of_mem_zip (a := c.1) (b := c.2) h4).1

theorem getElem?_idxOf {l : List K} {x : K} (h : x ∈ l) : l[l.idxOf x]? = some x := by
  rw [List.getElem?_eq_getElem (List.idxOf_lt_length_of_mem h), List.getElem_idxOf]

theorem meltInterp_between (tbl : MeltTable K) (hc : tbl.Complete) (mrs temps : List K)
    (sm : mrs.Pairwise (· < ·)) (st : temps.Pairwise (· < ·))
    (cm : ∀ m ∈ tbl.rows.map (·.1), m ∈ mrs) (ct : ∀ t ∈ tbl.temps, t ∈ temps)
    (m t m0 m1 t0 t1 lo hi : K) (hb : InBlock tbl m t m0 m1 t0 t1) (hm : m ∈ mrs) (ht : t ∈ temps)
    (hbd : ∀ m' t' v, m0 ≤ m' → m' ≤ m1 → t0 ≤ t' → t' ≤ t1 → tbl.at m' t' = some v →
      lo ≤ v ∧ v ≤ hi) :
    ∃ y, meltLoc (meltInterp tbl mrs temps) mrs temps m t = .ok (some y) ∧ lo ≤ y ∧ y ≤ hi := by
  have gi := getElem?_idxOf hm
  have ga := getElem?_idxOf (cm m0 hb.hm0)
  have gb := getElem?_idxOf (cm m1 hb.hm1)
  have gj := getElem?_idxOf ht
  have gja := getElem?_idxOf (ct t0 hb.ht0)
  have gjb := getElem?_idxOf (ct t1 hb.ht1)
  have hia := (sorted_pos sm ga gi).1 hb.m0le
  have hib := (sorted_pos sm gi gb).1 hb.lem1
  have hja := (sorted_pos st gja gj).1 hb.t0le
  have hjb := (sorted_pos st gj gjb).1 hb.let1
  -- one column of the table
  have hcol : ∀ t' ∈ tbl.temps, t0 ≤ t' → t' ≤ t1 →
      ∃ y, (posInterp (mrs.map (fun m => tbl.at m t')))[mrs.idxOf m]? = some (some y) ∧
        lo ≤ y ∧ y ≤ hi := by
    intro t' ht' h1 h2
    obtain ⟨va, hva⟩ := hc m0 hb.hm0 t' ht'
    obtain ⟨vb, hvb⟩ := hc m1 hb.hm1 t' ht'
    refine posInterp_between _ (mrs.idxOf m0) _ (mrs.idxOf m1) va vb lo hi ?_ ?_ hia hib ?_
    · rw [List.getElem?_map, ga]; simp [hva]
    · rw [List.getElem?_map, gb]; simp [hvb]
    · intro k v hk1 hk2 hv
      rw [List.getElem?_map] at hv
      cases hg : mrs[k]? with
      | none => rw [hg] at hv; cases hv
      | some mk =>
        rw [hg] at hv
        simp only [Option.map_some, Option.some.injEq] at hv
        exact hbd mk t' v ((sorted_pos sm ga hg).2 hk1) ((sorted_pos sm hg gb).2 hk2) h1 h2 hv
  have hi' : mrs.idxOf m < mrs.length := List.idxOf_lt_length_of_mem hm
  have hrow : (meltInterp tbl mrs temps)[mrs.idxOf m]? = some (posInterp ((temps.map (fun t =>
      posInterp (mrs.map (fun m => tbl.at m t)))).map (fun c => (c[mrs.idxOf m]?).join))) := by
    unfold meltInterp
    rw [List.getElem?_map, List.getElem?_range hi']; rfl
  have hent : ∀ (k : Nat) t', temps[k]? = some t' → ((temps.map (fun t =>
      posInterp (mrs.map (fun m => tbl.at m t)))).map (fun c => (c[mrs.idxOf m]?).join))[k]? =
        some ((posInterp (mrs.map (fun m => tbl.at m t')))[mrs.idxOf m]?).join := by
    intro k t' hk
    rw [List.getElem?_map, List.getElem?_map, hk]; rfl
  obtain ⟨ya, hya, -⟩ := hcol t0 hb.ht0 (le_refl _) (hb.t0le.trans hb.let1)
  obtain ⟨yb, hyb, -⟩ := hcol t1 hb.ht1 (hb.t0le.trans hb.let1) (le_refl _)
  obtain ⟨y, hy, hy1, hy2⟩ := posInterp_between ((temps.map (fun t =>
      posInterp (mrs.map (fun m => tbl.at m t)))).map (fun c => (c[mrs.idxOf m]?).join))
    (temps.idxOf t0) (temps.idxOf t) (temps.idxOf t1) ya yb lo hi
    (by rw [hent _ _ gja, hya]; rfl) (by rw [hent _ _ gjb, hyb]; rfl) hja hjb (by
      intro k v hk1 hk2 hv
      cases hg : temps[k]? with
      | none =>
        rw [List.getElem?_eq_none_iff] at hg
        rw [List.getElem?_eq_none (by simpa using hg)] at hv
        cases hv
      | some tk =>
        rw [hent k tk hg] at hv
        have h1 := (sorted_pos st gja hg).2 hk1
        have h2 := (sorted_pos st hg gjb).2 hk2
        by_cases hmem : tk ∈ tbl.temps
        · obtain ⟨y, e, hb1, hb2⟩ := hcol tk hmem h1 h2
          rw [e] at hv
          simp only [Option.join_some, Option.some.injEq] at hv
          rw [← hv]; exact ⟨hb1, hb2⟩
        · exfalso
          cases hx : (posInterp (mrs.map (fun m => tbl.at m tk)))[mrs.idxOf m]? with
          | none => rw [hx] at hv; cases hv
          | some x =>
            have := posInterp_none _ (by
              intro z hz
              obtain ⟨m', _, rfl⟩ := List.mem_map.1 hz
              cases hat : tbl.at m' tk with
              | none => rfl
              | some v => exact absurd (tbl.at_mem m' tk v hat).2 hmem) _ x hx
            rw [hx, this] at hv
            cases hv)
  refine ⟨y, ?_, hy1, hy2⟩
  unfold meltLoc
  rw [hrow, List.contains_iff_mem.2 hm, List.contains_iff_mem.2 ht]
  simp only []
  rw [hy]

theorem insertUnique_spec (src : List (Option K)) (target : List K) (hne : target ≠ []) :
    ∃ l, insertUniqueInRange src target = .ok l ∧ l.Pairwise (· < ·) ∧ (∀ x ∈ target, x ∈ l) ∧
      (∀ x, x ∈ l → x ∈ target ∨ some x ∈ src) ∧
      ∀ x a b, some x ∈ src → a ∈ target → b ∈ target → a ≤ x → x ≤ b → x ∈ l := by
  cases target with
  | nil => exact absurd rfl hne
  | cons y ys =>
    obtain ⟨a1, a2⟩ := foldl_min_spec ys y
    obtain ⟨b1, b2⟩ := foldl_max_spec ys y
    refine ⟨_, rfl, sortUnique_sorted _, ?_, ?_, ?_⟩
    · intro x hx; rw [mem_sortUnique]; exact List.mem_append_left _ hx
    · intro x hx
      rw [mem_sortUnique, List.mem_append] at hx
      rcases hx with hx | hx
      · exact Or.inl hx
      · right
        have := (List.mem_filter.1 hx).1
        simpa using this
    · intro x a b hs ha hb hax hxb
      rw [mem_sortUnique, List.mem_append]
      rcases (le_trans (a2 a ha) hax).lt_or_eq with h1 | h1
      · rcases (le_trans hxb (b2 b hb)).lt_or_eq with h2 | h2
        · right
          rw [List.mem_filter]
          refine ⟨by simpa using hs, ?_⟩
          simp only [Bool.and_eq_true, decide_eq_true_eq]
          exact ⟨h1, h2⟩
        · left; rw [h2]; exact b1
      · left; rw [← h1]; exact a1

/-- **C50** partial: for queries within the table, each missing pair gives 0 and each other
pair a value within any bounds of the table entries around it (so a fraction, and the
exact entry at a table point), whatever is queried together.  Missing: the value inside a
cell is not the interpolation at the query and does depend on the other queries, see
`C50_refuted`. -/
theorem C50_melt_frac_partial (tbl : MeltTable K) (hc : tbl.Complete)
    (queries : List (List (K × Option K)))
    (hin : ∀ col ∈ queries, ∀ q ∈ col, ∀ m, q.2 = some m → ∃ m0 m1 t0 t1, InBlock tbl m q.1 m0 m1 t0 t1)
    (hr : tbl.rows ≠ []) (ht : tbl.temps ≠ []) :
    ∃ out, getMeltFrac tbl queries = .ok out ∧ out.length = queries.length ∧
      ∀ (j : Nat) col, queries[j]? = some col → ∃ res, out[j]? = some res ∧
        res.length = col.length ∧ ∀ (i : Nat) t q, col[i]? = some (t, q) → ∃ y, res[i]? = some (some y) ∧
          (q = none → y = 0) ∧
          ∀ m m0 m1 t0 t1 lo hi, q = some m → InBlock tbl m t m0 m1 t0 t1 →
            (∀ m' t' v, m0 ≤ m' → m' ≤ m1 → t0 ≤ t' → t' ≤ t1 → tbl.at m' t' = some v →
              lo ≤ v ∧ v ≤ hi) → lo ≤ y ∧ y ≤ hi := by
  obtain ⟨temps, e1, s1, c1, -, i1⟩ := insertUnique_spec
    (queries.flatten.map (fun q => some q.1)) tbl.temps ht
  obtain ⟨mrs, e2, s2, c2, -, i2⟩ := insertUnique_spec
    (queries.flatten.map (fun q => q.2)) (tbl.rows.map (·.1)) (by simpa using hr)
  -- one query
  have hq : ∀ col ∈ queries, ∀ q ∈ col, ∀ m, q.2 = some m → ∀ m0 m1 t0 t1 lo hi,
      InBlock tbl m q.1 m0 m1 t0 t1 →
      (∀ m' t' v, m0 ≤ m' → m' ≤ m1 → t0 ≤ t' → t' ≤ t1 → tbl.at m' t' = some v →
        lo ≤ v ∧ v ≤ hi) →
      ∃ y, meltLoc (meltInterp tbl mrs temps) mrs temps m q.1 = .ok (some y) ∧ lo ≤ y ∧ y ≤ hi := by
    intro col hcol q hqm m hm m0 m1 t0 t1 lo hi hb hbd
    refine meltInterp_between tbl hc mrs temps s2 s1 c2 c1 m q.1 m0 m1 t0 t1 lo hi hb ?_ ?_ hbd
    · refine i2 m m0 m1 (List.mem_map.2 ⟨q, List.mem_flatten.2 ⟨col, hcol, hqm⟩, hm⟩) hb.hm0 hb.hm1
        hb.m0le hb.lem1
    · exact i1 q.1 t0 t1 (List.mem_map.2 ⟨q, List.mem_flatten.2 ⟨col, hcol, hqm⟩, rfl⟩) hb.ht0 hb.ht1
        hb.t0le hb.let1
  -- some bounds always exist: the query is defined
  have hdef : ∀ col ∈ queries, ∀ q ∈ col, ∀ m, q.2 = some m →
      ∃ y, meltLoc (meltInterp tbl mrs temps) mrs temps m q.1 = .ok (some y) := by
    intro col hcol q hqm m hm
    obtain ⟨m0, m1, t0, t1, hb⟩ := hin col hcol q hqm m hm
    -- bounds of all entries
    have hbds : ∃ lo hi : K, ∀ m' t' v, tbl.at m' t' = some v → lo ≤ v ∧ v ≤ hi := by
      have hfin : ∀ l : List K, ∃ lo hi : K, ∀ v ∈ l, lo ≤ v ∧ v ≤ hi := by
        intro l
        induction l with
        | nil => exact ⟨0, 0, by simp⟩
        | cons x l ih =>
          obtain ⟨lo, hi, h⟩ := ih
          refine ⟨min x lo, max x hi, ?_⟩
          intro v hv
          rcases List.mem_cons.1 hv with rfl | hv
          · exact ⟨min_le_left _ _, le_max_left _ _⟩
          · exact ⟨(min_le_right _ _).trans (h v hv).1, (h v hv).2.trans (le_max_right _ _)⟩
      obtain ⟨lo, hi, h⟩ := hfin ((tbl.rows.map (·.2)).flatten)
      refine ⟨lo, hi, ?_⟩
      intro m' t' v hv
      apply h
      unfold MeltTable.at at hv
      cases hr : tbl.rows.find? (fun r => decide (r.1 = m')) with
      | none => rw [hr] at hv; cases hv
      | some r =>
        rw [hr] at hv
        simp only [Option.map_eq_some_iff] at hv
        obtain ⟨c, hcf, rfl⟩ := hv
        have h4 := List.mem_of_find?_eq_some hcf
        exact List.mem_flatten.2 ⟨r.2, List.mem_map.2 ⟨r, List.mem_of_find?_eq_some hr, rfl⟩,
          (List.of_mem_zip (a := c.1) (b := c.2) h4).2⟩
    obtain ⟨lo, hi, h⟩ := hbds
    obtain ⟨y, hy, -⟩ := hq col hcol q hqm m hm m0 m1 t0 t1 lo hi hb
      (fun m' t' v _ _ _ _ hv => h m' t' v hv)
    exact ⟨y, hy⟩
  obtain ⟨f, hf⟩ : ∃ f : K × Option K → Except PyErr (Option K), f = (fun q => match q.2 with
    | none => .ok (some 0)
    | some m => meltLoc (meltInterp tbl mrs temps) mrs temps m q.1) := ⟨_, rfl⟩
  have hfq : ∀ col ∈ queries, ∀ q ∈ col, ∃ b, f q = .ok b := by
    intro col hcol q hqm
    rw [hf]
    cases hm : q.2 with
    | none => exact ⟨some 0, by simp only [hm]⟩
    | some m =>
      obtain ⟨y, hy⟩ := hdef col hcol q hqm m hm
      exact ⟨some y, by simp only [hm]; exact hy⟩
  obtain ⟨out, ho, hlen, hget⟩ := mapM_ok (fun col => col.mapM f) queries (fun col hcol => by
    obtain ⟨m, h, _⟩ := mapM_ok f col (hfq col hcol)
    exact ⟨m, h⟩)
  refine ⟨out, ?_, hlen, ?_⟩
  · unfold getMeltFrac
    rw [e1]
    simp only [bind, Except.bind]
    rw [e2]
    simp only []
    rw [hf] at ho
    exact ho
  · intro j col hj
    obtain ⟨res, hres, hcm⟩ := hget j col hj
    have hcol := List.mem_of_getElem? hj
    obtain ⟨res', hr1, hr2, hr3⟩ := mapM_ok f col (hfq col hcol)
    rw [hcm] at hr1
    cases hr1
    refine ⟨res, hres, hr2, ?_⟩
    intro i t q hi
    obtain ⟨b, hb1, hb2⟩ := hr3 i (t, q) hi
    have hqm := List.mem_of_getElem? hi
    rw [hf] at hb2
    cases q with
    | none =>
      simp only [Except.ok.injEq] at hb2
      subst hb2
      exact ⟨0, hb1, fun _ => rfl, fun m _ _ _ _ _ _ h => by cases h⟩
    | some m =>
      simp only [] at hb2
      obtain ⟨y, hy⟩ := hdef col hcol (t, some m) hqm m rfl
      simp only [] at hy
      rw [hy] at hb2
      cases hb2
      refine ⟨y, hb1, (fun h => by cases h), ?_⟩
      intro m' m0 m1 t0 t1 lo hi hmm hb hbd
      cases hmm
      obtain ⟨y', hy', h1, h2⟩ := hq col hcol (t, some m) hqm m rfl m0 m1 t0 t1 lo hi hb hbd
      simp only [] at hy'
      rw [hy] at hy'
      cases hy'
      exact ⟨h1, h2⟩

/-- **C50** a query outside the table's mixing ratios stops the run. -/
theorem C50_out_of_range (tbl : MeltTable K) (t m : K) (hr : tbl.rows ≠ []) (ht : tbl.temps ≠ [])
    (hout : (∀ r ∈ tbl.rows, m < r.1) ∨ (∀ r ∈ tbl.rows, r.1 < m)) :
    getMeltFrac tbl [[(t, some m)]] = .error .keyError := by
  obtain ⟨temps, e1, -⟩ := insertUnique_spec ([[(t, some m)]].flatten.map (fun q => some q.1)) tbl.temps ht
  have hmrs : ∃ mrs, insertUniqueInRange ([[(t, some m)]].flatten.map (fun q => q.2))
      (tbl.rows.map (·.1)) = .ok mrs ∧ m ∉ mrs := by
    cases hrow : tbl.rows with
    | nil => exact absurd hrow hr
    | cons r rs =>
      refine ⟨_, rfl, ?_⟩
      rw [mem_sortUnique, List.mem_append]
      obtain ⟨a1, a2⟩ := foldl_min_spec (rs.map (·.1)) r.1
      obtain ⟨b1, b2⟩ := foldl_max_spec (rs.map (·.1)) r.1
      have hlab : ∀ x ∈ r.1 :: rs.map (·.1), m ≠ x ∧ ((∀ y ∈ tbl.rows, m < y.1) → m < x) ∧
          ((∀ y ∈ tbl.rows, y.1 < m) → x < m) := by
        intro x hx
        have : x ∈ tbl.rows.map (·.1) := by rw [hrow]; exact hx
        obtain ⟨y, hy, rfl⟩ := List.mem_map.1 this
        refine ⟨?_, fun h => h y hy, fun h => h y hy⟩
        rcases hout with h | h
        · exact (h y hy).ne
        · exact (h y hy).ne'
      rintro (h | h)
      · exact (hlab m h).1 rfl
      · have h2 := (List.mem_filter.1 h).2
        simp only [Bool.and_eq_true, decide_eq_true_eq] at h2
        rcases hout with ho | ho
        · exact absurd ((hlab _ a1).2.1 ho) (not_lt.2 h2.1.le)
        · exact absurd ((hlab _ b1).2.2 ho) (not_lt.2 h2.2.le)
  obtain ⟨mrs, e2, hm⟩ := hmrs
  unfold getMeltFrac
  rw [e1]
  simp only [bind, Except.bind]
  rw [e2]
  have hl : meltLoc (meltInterp tbl mrs temps) mrs temps m t = .error .keyError := by
    unfold meltLoc
    have : mrs.contains m = false := by
      rw [← Bool.not_eq_true, List.contains_iff_mem]; exact hm
    rw [this]
    cases (meltInterp tbl mrs temps)[mrs.idxOf m]? <;> rfl
  simp only [List.mapM_cons, List.mapM_nil, hl]
  rfl

/-- **C50** does not hold: the melt fraction of the same query changes when another query
falls into the same table cell. -/
theorem C50_refuted :
    ¬ ∀ (tbl : MeltTable ℚ) (q q' : ℚ × Option ℚ) (x y z : Option ℚ), tbl.Complete →
      getMeltFrac tbl [[q]] = .ok [[x]] → getMeltFrac tbl [[q, q']] = .ok [[y, z]] → x = y := by
  intro h
  have := h ⟨[100, 200], [(0, [1, 1]), (1, [0, 1 / 2])]⟩ (100, some (1 / 10)) (200, some (1 / 5))
    (some (1 / 2)) (some (2 / 3)) (some (2 / 3)) (by
      intro m hm t ht
      simp only [List.map_cons, List.map_nil, List.mem_cons, List.not_mem_nil, or_false] at hm ht
      rcases hm with rfl | rfl <;> rcases ht with rfl | rfl
      · exact ⟨1, by decide +kernel⟩
      · exact ⟨1, by decide +kernel⟩
      · exact ⟨0, by decide +kernel⟩
      · exact ⟨1 / 2, by decide +kernel⟩) (by decide +kernel) (by decide +kernel)
  revert this
  decide +kernel

/-- **C50** nor is the value the interpolation at the query: alone in its cell any ratio gets
the value half way between the two rows. -/
theorem C50_ignores_label_refuted :
    getMeltFrac (⟨[100], [(0, [1]), (1, [0])]⟩ : MeltTable ℚ) [[(100, some (1 / 10))]] =
        .ok [[some (1 / 2)]] ∧
      getMeltFrac (⟨[100], [(0, [1]), (1, [0])]⟩ : MeltTable ℚ) [[(100, some (9 / 10))]] =
        .ok [[some (1 / 2)]] := by
  constructor <;> decide +kernel

/-- A table query, a missing pair and an inner query. -/
example : getMeltFrac (⟨[100, 200], [(0, [1, 1]), (1, [0, 1 / 2])]⟩ : MeltTable ℚ)
    [[(200, some 1), (150, none)], [(150, some 1)]] =
      .ok [[some (1 / 2), some 0], [some (1 / 4)]] := by decide +kernel

end MoonPIES
