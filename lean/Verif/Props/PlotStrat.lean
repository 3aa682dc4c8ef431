import Verif.Lemmas.PlotStratRows

/-!
# C84: how a column is drawn
-/

namespace MoonPIES

open Spec

set_option linter.unusedSectionVars false

variable {K : Type} [Field K] [LinearOrder K] [IsStrictOrderedRing K]

/-- **C84 (ranges).**  Whatever the order of the rows, the table handed to `plot_strat` lists the
layers from the top: two rows per layer, at the top and at the base of the layer, and one more row
at the base of the column.  All of them carry the label of the layer, the largest of its sources and
the hatch of that source.  The base carries the ice percentage of the layer. -/
theorem C84_ranges (hash : String → Int) {sortDepth : List (CleanRow K) → List (CleanRow K)}
    {sortDiam : SizeTable K → SizeTable K} (h1 : SortsBy (fun r => r.depth) sortDepth)
    (h2 : SortsBy (fun r : String × K => r.2) sortDiam) (cdf : SizeTable K)
    (rows layers : List (CleanRow K)) (hp : rows.Perm layers)
    (hl : layers.Pairwise (fun a b => a.depth < b.depth)) (hne : layers ≠ [])
    (hd : ∀ r ∈ layers, Drawable cdf r.label) :
    ∃ out, stratRanges hash sortDepth sortDiam cdf rows = .ok out ∧
      out.length = 2 * layers.length + 1 ∧
      ∀ (k : Nat) (r : CleanRow K) (ns : List String), layers[k]? = some r → Names r.label ns →
        ∃ src h top base, Largest cdf ns src ∧ Pattern hash src h ∧
          out[2 * k]? = some top ∧ out[2 * k + 1]? = some base ∧
          layerTop layers k = some top.depth ∧ base.depth = r.depth ∧ base.icepct = r.icepct ∧
          (top.label = r.label ∧ top.hatch = h ∧ top.hatchlabel = src) ∧
          (base.label = r.label ∧ base.hatch = h ∧ base.hatchlabel = src) ∧
          (k + 1 = layers.length → out[2 * k + 2]? = some base) := by
  obtain ⟨out, src, ho, hlen, hs, hr⟩ := ranges_rows hash h1 h2 cdf rows layers hp hl hne hd
  refine ⟨out, ho, hlen, ?_⟩
  intro k r ns hk hn
  obtain ⟨t, t1, t2, t3, t4, -, t5⟩ := hr k r (2 * k) hk (by omega)
  obtain ⟨b, b1, b2, b3, b4, b5, -⟩ := hr k r (2 * k + 1) hk (by omega)
  obtain ⟨b6, b7⟩ := b5 (by omega)
  refine ⟨src r.label, patternOf hash (src r.label), t, b,
    hs r (List.mem_of_getElem? hk) ns hn, patternOf_spec _ _, t1, b1, t5 rfl, b6, b7,
    ⟨t2, t4, t3⟩, ⟨b2, b4, b3⟩, ?_⟩
  intro hlast
  obtain ⟨c, c1, c2, c3, c4, c5, -⟩ := hr k r (2 * k + 2) hk (by omega)
  obtain ⟨c6, c7⟩ := c5 (by omega)
  rw [c1]
  congr 1
  cases c; cases b
  simp_all

/-- **C84 (missing source).**  A layer with several sources one of which is not in the crater list
cannot be drawn. -/
theorem C84_missing (hash : String → Int) {sortDepth : List (CleanRow K) → List (CleanRow K)}
    (sortDiam : SizeTable K → SizeTable K) (h1 : SortsBy (fun r => r.depth) sortDepth)
    (cdf : SizeTable K) (rows : List (CleanRow K)) (r : CleanRow K) (hr : r ∈ rows)
    (ns : List String) (hn : Names r.label ns) (hlen : 2 ≤ ns.length) (n : String) (hmem : n ∈ ns)
    (hmiss : ∀ d, (n, d) ∉ cdf) :
    ∃ e, stratRanges hash sortDepth sortDiam cdf rows = .error e := by
  have hl : labelLiths r.label = ns := by rw [hn.join]; exact labelLiths_join ns hn.ne hn.free
  have hloc : ∃ e, locNames cdf ns = .error e := by
    cases h : locNames cdf ns with
    | error e => exact ⟨e, rfl⟩
    | ok rows' =>
      exfalso
      unfold locNames at h
      obtain ⟨parts, hp, -⟩ := bind_ok_inv h
      obtain ⟨-, hi⟩ := mapM_ok_inv _ ns parts hp
      obtain ⟨i, hin⟩ := List.mem_iff_getElem?.1 hmem
      obtain ⟨b, -, hb⟩ := hi i n hin
      have : cdf.filter (fun r => decide (r.1 = n)) = [] := by
        rw [List.filter_eq_nil_iff]
        rintro ⟨m, d⟩ hm he
        rw [decide_eq_true_eq] at he
        subst he
        exact hmiss d hm
      rw [this] at hb
      cases hb
  obtain ⟨e, he⟩ := hloc
  have hsrc : hatchSource sortDiam cdf r.label = .error e := by
    unfold hatchSource
    rw [hl, if_pos (by omega)]
    simp only [bind, Except.bind, he]
  obtain ⟨hp, -⟩ := h1 (rows ++ rows)
  have hmem2 : r ∈ sortDepth (rows ++ rows) := hp.mem_iff.2 (by simp [hr])
  unfold stratRanges
  cases hsd : sortDepth (rows ++ rows) with
  | nil => rw [hsd] at hmem2; cases hmem2
  | cons s ss =>
    simp only []
    rw [hsd] at hmem2
    obtain ⟨key, hkey, -⟩ := lithKey_get hash
      (((s :: ss).map (·.label) ++ [(ss.getLastD s).label]).flatMap labelLiths)
    rw [hkey]
    obtain ⟨i, hi⟩ := List.mem_iff_getElem?.1 hmem2
    have hil := (List.getElem?_eq_some_iff.1 hi).1
    refine (mapM_error_iff _ _).2 ?_
    obtain ⟨cells, hcells⟩ : ∃ t : List (K × Option K),
      t = (0, some 0) :: (s :: ss).map (fun s => (s.depth, s.icepct)) := ⟨_, rfl⟩
    rw [← hcells]
    have hic : i < cells.length := by rw [hcells]; simp at hil ⊢; omega
    refine ⟨(cells[i], r.label), ?_, e, ?_⟩
    · refine List.mem_of_getElem? (i := i) ?_
      rw [List.getElem?_zip_eq_some]
      refine ⟨List.getElem?_eq_getElem hic, ?_⟩
      rw [List.getElem?_append_left (by simpa using hil), List.getElem?_map, hi]; rfl
    · simp only [bind, Except.bind, hsrc]

/-- **C84 (drawing).**  Inside each layer the hatch seen is the hatch of that layer.  The colour seen
is the ice percentage of the deepest layer with the same hatch, and the legend, which changes the
colour of areas of the plot, does not change what is seen.  Nothing is seen below the column. -/
theorem C84_drawn (hash : String → Int) {sortDepth : List (CleanRow K) → List (CleanRow K)}
    {sortDiam : SizeTable K → SizeTable K} (h1 : SortsBy (fun r => r.depth) sortDepth)
    (h2 : SortsBy (fun r : String × K => r.2) sortDiam) (cdf : SizeTable K)
    (rows layers : List (CleanRow K)) (hp : rows.Perm layers)
    (hl : layers.Pairwise (fun a b => a.depth < b.depth)) (hne : layers ≠ [])
    (hd : ∀ r ∈ layers, Drawable cdf r.label) (hice : ∀ r ∈ layers, r.icepct ≠ none) :
    ∃ (out : List (RangeRow K)) (hat : String → String),
      stratRanges hash sortDepth sortDiam cdf rows = .ok out ∧
      (∀ r ∈ layers, ∀ ns, Names r.label ns →
        ∃ src, Largest cdf ns src ∧ Pattern hash src (hat r.label)) ∧
      (∀ (k : Nat) (r : CleanRow K) (d : K), layers[k]? = some r → Inside layers k d →
        hatchAt (plotAreas out) d = some (hat r.label) ∧
        ∃ (m : Nat) (r' : CleanRow K), k ≤ m ∧ layers[m]? = some r' ∧
          hat r'.label = hat r.label ∧
          (∀ (m' : Nat) r'', m < m' → layers[m']? = some r'' → hat r''.label ≠ hat r.label) ∧
          colourAt (plotAreas out) d = r'.icepct ∧
          ∀ seen, colourAt (recolour seen (plotAreas out)) d = r'.icepct) ∧
      ∀ d, (∀ r ∈ layers, r.depth ≤ d) →
        hatchAt (plotAreas out) d = none ∧ colourAt (plotAreas out) d = none := by
  obtain ⟨out, src, ho, hlen, hs, hr⟩ := ranges_rows hash h1 h2 cdf rows layers hp hl hne hd
  obtain ⟨ph, hph⟩ : ∃ t : String → String, t = fun l => patternOf hash (src l) := ⟨_, rfl⟩
  have hhat : ∀ (k : Nat) r, layers[k]? = some r →
      (layers.map (fun r => ph r.label))[k]? = some (ph r.label) := by
    intro k r hk; rw [List.getElem?_map, hk]; rfl
  refine ⟨out, ph, ho, ?_, ?_, ?_⟩
  · intro r hr ns hn
    exact ⟨src r.label, hs r hr ns hn, by rw [hph]; exact patternOf_spec _ _⟩
  rotate_left
  · intro d hdeep
    have hnone : ∀ (a : Area K), a ∈ plotAreas out → a.covers d = false := by
      intro a ha
      obtain ⟨o, -, rfl⟩ := List.mem_map.1 ha
      by_contra hc
      rw [Bool.not_eq_false] at hc
      unfold Area.covers at hc
      rw [List.any_eq_true] at hc
      obtain ⟨s, hs, hc⟩ := hc
      rw [decide_eq_true_eq] at hc
      obtain ⟨j, x, y, -, hy, -, -, rfl⟩ := (spansOf_mem _ _ _).1 hs
      have hjl : j + 1 < 2 * layers.length + 1 := by
        rw [← hlen]; exact (List.getElem?_eq_some_iff.1 hy).1
      -- the row below has the depth of a layer
      have hm : j / 2 < layers.length := by omega
      have hme := List.getElem?_eq_getElem hm
      have hle : y.depth ≤ d := by
        rcases Nat.even_or_odd' j with ⟨m, rfl | rfl⟩
        · have e : 2 * m / 2 = m := by omega
          simp only [e] at hm hme
          obtain ⟨o, o1, -, -, -, o5, -⟩ := hr m _ (2 * m + 1) hme (by omega)
          rw [hy] at o1
          cases o1
          rw [(o5 (by omega)).1]
          exact hdeep _ (List.getElem_mem hm)
        · have e : (2 * m + 1) / 2 = m := by omega
          simp only [e] at hm hme
          by_cases hm1 : m + 1 < layers.length
          · obtain ⟨o, o1, -, -, -, -, o6⟩ := hr (m + 1) _ (2 * m + 1 + 1)
              (List.getElem?_eq_getElem hm1) (by omega)
            rw [hy] at o1
            cases o1
            have h6 := o6 (by omega)
            change layers[m]?.map (·.depth) = _ at h6
            rw [hme] at h6
            simp only [Option.map_some, Option.some.injEq] at h6
            rw [← h6]
            exact hdeep _ (List.getElem_mem hm)
          · obtain ⟨o, o1, -, -, -, o5, -⟩ := hr m _ (2 * m + 1 + 1) hme (by omega)
            rw [hy] at o1
            cases o1
            rw [(o5 (by omega)).1]
            exact hdeep _ (List.getElem_mem hm)
      exact absurd hc.2 (not_lt.2 hle)
    have hfil : (plotAreas out).filter (fun a => a.covers d) = [] := by
      rw [List.filter_eq_nil_iff]
      intro a ha
      rw [hnone a ha]; simp
    constructor
    · unfold hatchAt
      change (((plotAreas out).filter (fun a => a.covers d)).map _).getLast? = _
      rw [hfil]; rfl
    · unfold colourAt
      change (((plotAreas out).filter (fun a => a.covers d)).filterMap _).getLast? = _
      rw [hfil]; rfl
  intro k r d hk hin
  have hkl := (List.getElem?_eq_some_iff.1 hk).1
  have hcov := fun (o : RangeRow K) => covers_iff (out := out) (hat := ph) hl hlen (fun k r j hk hj => by
    obtain ⟨o, o1, -, -, o4, o5, o6⟩ := hr k r j hk hj
    exact ⟨o, o1, by rw [o4, hph], fun h => (o5 h).1, o6⟩) hk hin (o := o)
  -- the deepest layer with the same hatch
  obtain ⟨m, hm⟩ : ∃ t, t = Nat.findGreatest
    (fun i => (layers.map (fun r => ph r.label))[i]? = some (ph r.label)) (layers.length - 1) := ⟨_, rfl⟩
  have hkm : k ≤ m := by
    rw [hm]
    exact Nat.le_findGreatest (P := fun i => (layers.map (fun r => ph r.label))[i]? = some (ph r.label)) (by omega) (hhat k r hk)
  have hmp : (layers.map (fun r => ph r.label))[m]? = some (ph r.label) := by
    rw [hm]
    exact Nat.findGreatest_spec (P := fun i => (layers.map (fun r => ph r.label))[i]? = some (ph r.label))
      (show k ≤ layers.length - 1 by omega) (hhat k r hk)
  have hmg : ∀ m', m < m' → m' < layers.length →
      (layers.map (fun r => ph r.label))[m']? ≠ some (ph r.label) := by
    intro m' h3 h4
    rw [hm] at h3
    exact Nat.findGreatest_is_greatest h3 (by omega)
  have hml : m < layers.length := by
    have := (List.getElem?_eq_some_iff.1 hmp).1
    simpa using this
  have hme := List.getElem?_eq_getElem hml
  have hmph : ph layers[m].label = ph r.label := by
    have := hhat m _ hme
    rw [hmp] at this
    exact (Option.some.inj this).symm
  -- its last row
  obtain ⟨j, hj⟩ : ∃ t, t = if m + 1 = layers.length then 2 * m + 2 else 2 * m + 1 := ⟨_, rfl⟩
  have hjm : (j = 2 * m ∨ j = 2 * m + 1 ∨ m + 1 = layers.length ∧ j = 2 * m + 2) ∧ j ≠ 2 * m ∧
      2 * m < j := by
    rw [hj]; split <;> omega
  obtain ⟨o, o1, -, o3, o4, o5, -⟩ := hr m _ j hme hjm.1
  obtain ⟨t, t1, -, t3, -, -, -⟩ := hr m _ (2 * m) hme (by omega)
  have harea : (plotAreas out)[j]? = some ⟨spansOf o.hatch out, o.icepct, o.hatch, o.hatchlabel⟩ := by
    unfold plotAreas; rw [List.getElem?_map, o1]; rfl
  have hareat : (plotAreas out)[2 * m]? =
      some ⟨spansOf t.hatch out, t.icepct, t.hatch, t.hatchlabel⟩ := by
    unfold plotAreas; rw [List.getElem?_map, t1]; rfl
  have hohat : o.hatch = ph r.label := by rw [o4, ← hmph, hph]
  have hoc : Area.covers ⟨spansOf o.hatch out, o.icepct, o.hatch, o.hatchlabel⟩ d = true :=
    (hcov o).2 hohat
  have hlater : ∀ (i : Nat) b, j < i → (plotAreas out)[i]? = some b → b.covers d = false := by
    intro i b hi hb
    unfold plotAreas at hb
    rw [List.getElem?_map] at hb
    cases hx : out[i]? with
    | none => rw [hx] at hb; cases hb
    | some x =>
      rw [hx] at hb
      simp only [Option.map_some, Option.some.injEq] at hb
      subst hb
      by_contra hc
      rw [Bool.not_eq_false] at hc
      have hxh := (hcov x).1 hc
      have hil : i < 2 * layers.length + 1 := by
        rw [← hlen]; exact (List.getElem?_eq_some_iff.1 hx).1
      -- the layer of row i
      have hm1 : m + 1 ≠ layers.length := by
        intro h
        rw [if_pos h] at hj
        omega
      rw [if_neg hm1] at hj
      obtain ⟨m', hm'l, hm'j⟩ : ∃ m', m' < layers.length ∧
          (i = 2 * m' ∨ i = 2 * m' + 1 ∨ m' + 1 = layers.length ∧ i = 2 * m' + 2) := by
        by_cases hcc : i < 2 * layers.length
        · exact ⟨i / 2, by omega, by omega⟩
        · exact ⟨layers.length - 1, by omega, by omega⟩
      obtain ⟨y, y1, -, -, y4, -, -⟩ := hr m' _ i (List.getElem?_eq_getElem hm'l) hm'j
      rw [hx] at y1
      cases y1
      refine hmg m' (by omega) hm'l ?_
      rw [hhat m' _ (List.getElem?_eq_getElem hm'l), ← hxh, y4, hph]
  obtain ⟨q1, q2⟩ := o5 hjm.2.1
  obtain ⟨p, hpp⟩ := Option.ne_none_iff_exists'.1 (hice _ (List.getElem_mem hml))
  have hseen := seen_last (plotAreas out) d j _ harea hoc hlater
  refine ⟨?_, m, layers[m], hkm, hme, hmph, ?_, ?_, ?_⟩
  · rw [hseen.1]
    exact congrArg some hohat
  · intro m' r'' h3 h4 h5
    exact hmg m' h3 (List.getElem?_eq_some_iff.1 h4).1 (by rw [hhat m' r'' h4, h5])
  · rw [hpp]
    exact hseen.2 p (by simp only [q2, hpp])
  · intro seen
    obtain ⟨a', r1, r2, r3, r4, r5⟩ := recolour_get (plotAreas out) seen j _ harea
    have hcov' : ∀ {a b : Area K}, a.spans = b.spans → a.covers d = b.covers d := by
      intro a b h; unfold Area.covers; rw [h]
    rw [hpp]
    refine (seen_last (recolour seen (plotAreas out)) d j a' r1 ?_ ?_).2 p ?_
    · rw [hcov' r2]; exact hoc
    · intro i b hi hb
      have hil : i < (plotAreas out).length := by
        rw [← recolour_length (plotAreas out) seen]; exact (List.getElem?_eq_some_iff.1 hb).1
      obtain ⟨b', s1, s2, -⟩ := recolour_get (plotAreas out) seen i _ (List.getElem?_eq_getElem hil)
      rw [hb] at s1
      cases s1
      rw [hcov' s2]
      exact hlater i _ hi (List.getElem?_eq_getElem hil)
    · rw [r5 (Or.inr ⟨2 * m, _, hjm.2.2, hareat, by simp only [t3, o3]⟩)]
      simp only [q2, hpp]

/-- **C84 (colours, partial).**  A layer is coloured by its own ice percentage if no deeper layer
has the same hatch. -/
theorem C84_colours_partial (hash : String → Int)
    {sortDepth : List (CleanRow K) → List (CleanRow K)}
    {sortDiam : SizeTable K → SizeTable K} (h1 : SortsBy (fun r => r.depth) sortDepth)
    (h2 : SortsBy (fun r : String × K => r.2) sortDiam) (cdf : SizeTable K)
    (rows layers : List (CleanRow K)) (hp : rows.Perm layers)
    (hl : layers.Pairwise (fun a b => a.depth < b.depth)) (hne : layers ≠ [])
    (hd : ∀ r ∈ layers, Drawable cdf r.label) (hice : ∀ r ∈ layers, r.icepct ≠ none)
    (k : Nat) (r : CleanRow K) (hk : layers[k]? = some r)
    (hdiff : ∀ (m : Nat) (r' : CleanRow K) (ns ns' : List String) (src src' h h' : String),
      k < m → layers[m]? = some r' → Names r.label ns → Names r'.label ns' → Largest cdf ns src →
      Largest cdf ns' src' → Pattern hash src h → Pattern hash src' h' → h ≠ h')
    (d : K) (hin : Inside layers k d) :
    ∃ out, stratRanges hash sortDepth sortDiam cdf rows = .ok out ∧
      colourAt (plotAreas out) d = r.icepct := by
  obtain ⟨out, hat, ho, hh, hc, -⟩ := C84_drawn hash h1 h2 cdf rows layers hp hl hne hd hice
  obtain ⟨-, m, r', hkm, hm, hhm, -, hcol, -⟩ := hc k r d hk hin
  rcases Nat.lt_or_ge k m with hlt | hge
  · exfalso
    obtain ⟨ns, hn, -⟩ := hd r (List.mem_of_getElem? hk)
    obtain ⟨ns', hn', -⟩ := hd r' (List.mem_of_getElem? hm)
    obtain ⟨src, a1, a2⟩ := hh r (List.mem_of_getElem? hk) ns hn
    obtain ⟨src', b1, b2⟩ := hh r' (List.mem_of_getElem? hm) ns' hn'
    exact hdiff m r' ns ns' src src' _ _ hlt hm hn hn' a1 b1 a2 b2 hhm.symm
  · have : m = k := by omega
    subst this
    rw [hk] at hm
    cases hm
    exact ⟨out, ho, hcol⟩

/-- Two ice layers of different content with ejecta between them. -/
def exColumn : List (CleanRow ℚ) :=
  [{ ice := 1, ejecta := 0, label := "Ice", time := 3, depth := 1, icepct := some 100 },
   { ice := 0, ejecta := 1, label := "Faustini", time := 2, depth := 2, icepct := some 0 },
   { ice := 1, ejecta := 1, label := "Ice", time := 1, depth := 4, icepct := some 50 }]

theorem names_single {s : String} (h : ',' ∉ s.toList) : Names s [s] :=
  ⟨rfl, by simp, by simpa using h⟩

theorem exColumn_drawable (cdf : SizeTable ℚ) : ∀ r ∈ exColumn, Drawable cdf r.label := by
  intro r hr
  refine ⟨[r.label], names_single ?_, Or.inl rfl⟩
  revert r
  decide +kernel

theorem exColumn_sorted : exColumn.Pairwise (fun a b => a.depth < b.depth) := by
  decide +kernel

/-- **C84 (colours, refuted).**  A layer is not always coloured by its own ice percentage: pure ice
above ejecta above dirty ice is coloured as dirty ice, for every hash of strings, every sort and
every crater list. -/
theorem C84_colours_refuted :
    ∃ (layers : List (CleanRow ℚ)) (d : ℚ) (r : CleanRow ℚ), layers[0]? = some r ∧
      Inside layers 0 d ∧
      ∀ (hash : String → Int) (sortDepth : List (CleanRow ℚ) → List (CleanRow ℚ))
        (sortDiam : SizeTable ℚ → SizeTable ℚ) (cdf : SizeTable ℚ),
        SortsBy (fun r => r.depth) sortDepth → SortsBy (fun r : String × ℚ => r.2) sortDiam →
        ∃ out, stratRanges hash sortDepth sortDiam cdf layers = .ok out ∧
          colourAt (plotAreas out) d = some 50 ∧ r.icepct = some 100 := by
  have hin : Inside exColumn 0 (1 / 2) :=
    ⟨_, 0, rfl, rfl, by norm_num, by norm_num⟩
  refine ⟨exColumn, 1 / 2, _, rfl, hin, ?_⟩
  intro hash sortDepth sortDiam cdf h1 h2
  obtain ⟨out, hat, ho, hh, hc, -⟩ := C84_drawn hash h1 h2 cdf exColumn exColumn
    (List.Perm.refl _) exColumn_sorted (by simp [exColumn]) (exColumn_drawable cdf) (by decide +kernel)
  refine ⟨out, ho, ?_, rfl⟩
  obtain ⟨-, m, r', -, hm, hhm, hlast, hcol, -⟩ := hc 0 _ (1 / 2) rfl hin
  have hml : m < 3 := (List.getElem?_eq_some_iff.1 hm).1
  have : m = 2 := by
    by_contra hne
    exact hlast 2 _ (by omega) rfl rfl
  subst this
  have hr' : r'.icepct = some 50 := by
    have : exColumn[2]? = some { ice := 1, ejecta := 1, label := "Ice", time := 1, depth := 4, icepct := some 50 } := rfl
    rw [this] at hm
    cases hm
    rfl
  rw [hcol, hr']

/-- **C84 (legend).**  The legend lists each drawn label once: ice first, `Other` last and the rest
in alphabetical order. -/
theorem C84_legend (labels : List String) :
    (legendLabels labels).Nodup ∧ (∀ l, l ∈ legendLabels labels ↔ l ∈ labels) ∧
      ∃ mid, legendLabels labels = (if "Ice" ∈ labels then ["Ice"] else []) ++ mid ++
          (if "Other" ∈ labels then ["Other"] else []) ∧
        mid.Pairwise (· ≤ ·) ∧ "Ice" ∉ mid ∧ "Other" ∉ mid := by
  obtain ⟨mid, hmid⟩ : ∃ t, t =
    sortNames (labels.dedup.filter (fun l => decide (l ≠ "Ice" ∧ l ≠ "Other"))) := ⟨_, rfl⟩
  have hperm : mid.Perm (labels.dedup.filter (fun l => decide (l ≠ "Ice" ∧ l ≠ "Other"))) := by
    rw [hmid]; exact List.perm_insertionSort _ _
  have hmem : ∀ l, l ∈ mid ↔ l ∈ labels ∧ l ≠ "Ice" ∧ l ≠ "Other" := by
    intro l
    rw [hperm.mem_iff, List.mem_filter, List.mem_dedup, decide_eq_true_eq]
  have hnd : mid.Nodup := hperm.nodup_iff.2 (labels.nodup_dedup.filter _)
  have hsorted : mid.Pairwise (· ≤ ·) := by
    rw [hmid]
    have : Std.Total (fun a b : String => a ≤ b) := ⟨String.le_total⟩
    have : IsTrans String (fun a b : String => a ≤ b) := ⟨fun _ _ _ => String.le_trans⟩
    exact List.pairwise_insertionSort _ _
  have hdef : legendLabels labels = (if "Ice" ∈ labels then ["Ice"] else []) ++ mid ++
      (if "Other" ∈ labels then ["Other"] else []) := by rw [hmid]; rfl
  have hI : "Ice" ∉ mid := fun h => ((hmem _).1 h).2.1 rfl
  have hO : "Other" ∉ mid := fun h => ((hmem _).1 h).2.2 rfl
  refine ⟨?_, ?_, mid, hdef, hsorted, hI, hO⟩
  · rw [hdef]
    by_cases a : "Ice" ∈ labels <;> by_cases b : "Other" ∈ labels <;>
      simp [a, b, hnd, hI, List.nodup_append] <;>
      (intro x hx e; subst e; exact hO hx)
  · intro l
    rw [hdef, List.mem_append, List.mem_append, hmem]
    by_cases a : l = "Ice"
    · subst a
      by_cases b : "Ice" ∈ labels <;> simp [b]
    · by_cases b : l = "Other"
      · subst b
        by_cases c : "Other" ∈ labels <;> simp [c]
      · constructor
        · rintro ((h | h) | h)
          · split at h <;> simp_all
          · exact h.1
          · split at h <;> simp_all
        · intro h
          exact Or.inl (Or.inr ⟨h, a, b⟩)

/-- **C84 (layout).**  The axis of a seed and a cold trap exists, no other seed or cold trap uses it,
and it is not one of the blank axes; every axis is used or blank. -/
theorem C84_axes (nseeds ncts : Nat) (hn : 0 < nseeds) :
    (∀ s i, s < nseeds → i < ncts → axisOf ncts s i < axisCols nseeds ncts ∧
      axisOf ncts s i ∉ blankAxes (axisCols nseeds ncts) ncts) ∧
    (∀ s i s' i', i < ncts → i' < ncts → axisOf ncts s i = axisOf ncts s' i' → s = s' ∧ i = i') ∧
    ∀ a, a < axisCols nseeds ncts → a ∈ blankAxes (axisCols nseeds ncts) ncts ∨
      ∃ s i, s < nseeds ∧ i < ncts ∧ axisOf ncts s i = a := by
  have hform : ∀ s i, axisOf ncts s i = i + (ncts + 1) * s := by
    intro s i; unfold axisOf; ring
  have hcols : axisCols nseeds ncts + 1 = (ncts + 1) * nseeds := by
    unfold axisCols
    obtain ⟨m, rfl⟩ : ∃ m, nseeds = m + 1 := ⟨nseeds - 1, by omega⟩
    simp only [Nat.add_sub_cancel]
    ring
  have hmod : ∀ s i, i < ncts → axisOf ncts s i % (ncts + 1) = i := by
    intro s i hi
    rw [hform, Nat.add_mul_mod_self_left]
    exact Nat.mod_eq_of_lt (by omega)
  have hdiv : ∀ s i, i < ncts → axisOf ncts s i / (ncts + 1) = s := by
    intro s i hi
    rw [hform, Nat.add_mul_div_left _ _ (by omega), Nat.div_eq_of_lt (by omega), Nat.zero_add]
  have hblank : ∀ a, a ∈ blankAxes (axisCols nseeds ncts) ncts ↔
      a < axisCols nseeds ncts ∧ a % (ncts + 1) = ncts := by
    intro a
    unfold blankAxes
    rw [List.mem_filter, List.mem_range, decide_eq_true_eq]
    refine and_congr_right fun _ => ?_
    constructor
    · rintro ⟨h1, h2⟩
      obtain ⟨q, hq⟩ := Nat.dvd_of_mod_eq_zero h2
      have : a = ncts + (ncts + 1) * q := by omega
      rw [this, Nat.add_mul_mod_self_left]
      exact Nat.mod_eq_of_lt (by omega)
    · intro h
      have h3 := Nat.mod_add_div a (ncts + 1)
      rw [h] at h3
      refine ⟨by omega, ?_⟩
      have : a - ncts = (ncts + 1) * (a / (ncts + 1)) := by omega
      rw [this]
      exact Nat.mul_mod_right _ _
  refine ⟨?_, ?_, ?_⟩
  · intro s i hs hi
    constructor
    · have h1 : (ncts + 1) * (s + 1) ≤ (ncts + 1) * nseeds := Nat.mul_le_mul_left _ hs
      have h2 := hform s i
      have h3 : (ncts + 1) * (s + 1) = (ncts + 1) * s + (ncts + 1) := by ring
      omega
    · intro h
      have := ((hblank _).1 h).2
      rw [hmod s i hi] at this
      omega
  · intro s i s' i' hi hi' h
    have h1 := hmod s i hi
    have h2 := hdiv s i hi
    rw [h, hmod s' i' hi'] at h1
    rw [h, hdiv s' i' hi'] at h2
    exact ⟨h2.symm, h1.symm⟩
  · intro a ha
    by_cases hb : a % (ncts + 1) = ncts
    · exact Or.inl ((hblank a).2 ⟨ha, hb⟩)
    · right
      have h1 := Nat.mod_lt a (show 0 < ncts + 1 by omega)
      refine ⟨a / (ncts + 1), a % (ncts + 1), ?_, by omega, ?_⟩
      · exact Nat.div_lt_of_lt_mul (by omega)
      · rw [hform]; exact Nat.mod_add_div a (ncts + 1)

/-! ## Examples -/

/-- A stable sort by a key. -/
def sortOn {α : Type} (key : α → ℚ) (l : List α) : List α :=
  l.insertionSort (fun a b => key a ≤ key b)

/-- There are sorts as asked for. -/
theorem sortOn_sorts {α : Type} (key : α → ℚ) : SortsBy key (sortOn key) := by
  intro l
  have : Std.Total (fun a b : α => key a ≤ key b) := ⟨fun _ _ => le_total _ _⟩
  have : IsTrans α (fun a b : α => key a ≤ key b) := ⟨fun _ _ _ => le_trans⟩
  exact ⟨List.perm_insertionSort _ _, List.pairwise_insertionSort _ _⟩

/-- A column of ejecta of two craters on ice, listed from the base. -/
def exRowsUp : List (CleanRow ℚ) :=
  [{ ice := 2, ejecta := 0, label := "Ice", time := 3, depth := 5, icepct := some 100 },
   { ice := 1, ejecta := 3, label := "Shoemaker,Faustini", time := 2, depth := 3,
     icepct := some 25 }]

/-- The layers from the top. -/
def exLayersDown : List (CleanRow ℚ) := exRowsUp.reverse

/-- A crater list. -/
def exSizes : SizeTable ℚ := [("Haworth", 51), ("Shoemaker", 52), ("Faustini", 42)]

/-- The hypotheses of `C84_ranges` and `C84_drawn` hold for a column with two sources in a layer. -/
example : exRowsUp.Perm exLayersDown ∧ exLayersDown.Pairwise (fun a b => a.depth < b.depth) ∧
    exLayersDown ≠ [] ∧ (∀ r ∈ exLayersDown, Drawable exSizes r.label) ∧
    (∀ r ∈ exLayersDown, r.icepct ≠ none) ∧ Inside exLayersDown 1 4 := by
  refine ⟨(List.reverse_perm _).symm, by decide +kernel, by decide +kernel, ?_, by decide +kernel,
    ⟨_, 3, rfl, rfl, by norm_num, by norm_num⟩⟩
  intro r hr
  simp only [exLayersDown, exRowsUp, List.reverse_cons, List.reverse_nil, List.nil_append,
    List.cons_append, List.mem_cons, List.not_mem_nil, or_false] at hr
  rcases hr with rfl | rfl
  · refine ⟨["Shoemaker", "Faustini"], ⟨by decide +kernel, by decide +kernel, by decide +kernel⟩, ?_⟩
    right
    intro n hn
    simp only [List.mem_cons, List.not_mem_nil, or_false] at hn
    rcases hn with rfl | rfl
    · exact ⟨52, by decide +kernel⟩
    · exact ⟨42, by decide +kernel⟩
  · exact ⟨["Ice"], ⟨by decide +kernel, by decide +kernel, by decide +kernel⟩, Or.inl rfl⟩

/-- What comes out for it: `Shoemaker` is the larger source. -/
example : (stratRanges (fun s => s.length) (sortOn (·.depth)) (sortOn (·.2)) exSizes exRowsUp).map
      (fun l => l.map (fun r => (r.depth, r.icepct, r.hatch, r.hatchlabel))) =
    .ok [(0, some 0, "\\\\\\\\\\", "Shoemaker"), (3, some 25, "\\\\\\\\\\", "Shoemaker"),
      (3, some 25, "..", "Ice"), (5, some 100, "..", "Ice"), (5, some 100, "..", "Ice")] := by
  decide +kernel

/-- The hypotheses of `C84_missing` for the same column and a list without `Faustini`. -/
example : (∃ r ∈ exRowsUp, Names r.label ["Shoemaker", "Faustini"]) ∧
    ∀ d : ℚ, ("Faustini", d) ∉ [("Shoemaker", (52 : ℚ))] := by
  refine ⟨⟨⟨⟨1, 3, "Shoemaker,Faustini", 2, 3⟩, some 25⟩, by decide +kernel, by decide +kernel, by decide +kernel,
     by decide +kernel⟩, ?_⟩
  intro d h
  simp at h

example : stratRanges (fun s => s.length) (sortOn (·.depth)) (sortOn (·.2))
    [("Shoemaker", (52 : ℚ))] exRowsUp = .error .keyError := by decide +kernel

/-- The hypothesis of `C84_colours_partial` on hatches holds for the upper layer, whose hatch is
never that of ice when it has another name. -/
example : ∀ (hash : String → Int) (src h h' : String), src ≠ "Ice" → src ≠ "Other" →
    Pattern hash src h → Pattern hash "Ice" h' → h ≠ h' := by
  intro hash src h h' h1 h2 p p' e
  obtain ⟨i, -, hi⟩ := p.rest h1 h2
  have hd : ".." ∉ hatches := by decide +kernel
  exact hd (by rw [← p'.ice rfl, ← e]; exact List.mem_of_getElem? hi)

example : legendLabels ["Haworth", "Other", "Ice", "Faustini", "Ice", "Haworth"] =
    ["Ice", "Faustini", "Haworth", "Other"] := by decide +kernel

/-- Two seeds and three cold traps: axes 0 to 2 and 4 to 6, axis 3 is blank. -/
example : axisCols 2 3 = 7 ∧ blankAxes 7 3 = [3] ∧ axisOf 3 1 0 = 4 := by decide

end MoonPIES
