import Verif.Spec.PlotStrat
import Verif.Lemmas.PlotStrat

/-!
# Helper lemmas for the table of ranges
-/

namespace MoonPIES

open Spec

set_option linter.unusedSectionVars false

variable {K : Type} [Field K] [LinearOrder K] [IsStrictOrderedRing K]

/-- The source and hatch of a label that can be drawn. -/
theorem hatchSource_ok {sortDiam : SizeTable K → SizeTable K}
    (hsort : SortsBy (fun r : String × K => r.2) sortDiam) {cdf : SizeTable K} {label : String}
    (hd : Drawable cdf label) : ∃ src, hatchSource sortDiam cdf label = .ok src ∧
      src ∈ labelLiths label ∧ ∀ ns, Names label ns → Largest cdf ns src := by
  obtain ⟨ns, hn, hlist⟩ := hd
  have hl : labelLiths label = ns := by rw [hn.join]; exact labelLiths_join ns hn.ne hn.free
  have huniq : ∀ ns', Names label ns' → ns' = ns := by
    intro ns' hn'
    rw [← hl, hn'.join]
    exact (labelLiths_join ns' hn'.ne hn'.free).symm
  unfold hatchSource
  rw [hl]
  by_cases h1 : ns.length > 1
  · rw [if_pos h1]
    have hl' : ∀ n ∈ ns, ∃ d, (n, d) ∈ cdf := by
      rcases hlist with h | h
      · omega
      · exact h
    obtain ⟨rows, hrows⟩ := locNames_ok cdf ns hl'
    have hmem := locNames_mem cdf ns rows hrows
    obtain ⟨hp, hs⟩ := hsort rows
    cases hlast : (sortDiam rows).getLast? with
    | none =>
      exfalso
      rw [List.getLast?_eq_none_iff] at hlast
      rw [hlast] at hp
      have hnil := hp.symm.eq_nil
      obtain ⟨a, l, rfl⟩ := List.exists_cons_of_ne_nil hn.ne
      obtain ⟨d, hd⟩ := hl' a (by simp)
      have := (hmem (a, d)).2 ⟨hd, by simp⟩
      rw [hnil] at this
      cases this
    | some x =>
      have hx : x ∈ rows := hp.mem_iff.1 (List.mem_of_getLast? hlast)
      refine ⟨x.1, ?_, ((hmem x).1 hx).2, ?_⟩
      · simp only [bind, Except.bind, hrows, hlast]
      · intro ns' hn'
        rw [huniq ns' hn']
        refine Or.inr ⟨((hmem x).1 hx).2, x.2, ((hmem x).1 hx).1, ?_⟩
        intro n hnn d' hd'
        exact last_largest hs hlast (n, d') (hp.mem_iff.2 ((hmem (n, d')).2 ⟨hd', hnn⟩))
  · rw [if_neg h1]
    have hlen : ns.length = 1 := by
      have := List.length_pos_of_ne_nil hn.ne
      omega
    obtain ⟨a, rfl⟩ := List.length_eq_one_iff.1 hlen
    have : label = a := by rw [hn.join]; rfl
    exact ⟨label, rfl, by simp [this], fun ns' hn' => by rw [huniq ns' hn']; left; rw [this]⟩

theorem patternOf_spec (hash : String → Int) (src : String) :
    Pattern hash src (patternOf hash src) := by
  unfold patternOf
  refine ⟨?_, ?_, ?_⟩
  · rintro rfl; simp
  · rintro rfl; simp
  · intro h1 h2
    rw [if_neg h2, if_neg h1]
    have h := hatch_index (hash src)
    refine ⟨_, ?_, List.getElem?_eq_getElem h⟩
    rw [hatches_length]
    exact Int.toNat_of_nonneg (Int.emod_nonneg _ (by decide))

/-- The table of ranges, row by row. -/
theorem ranges_rows (hash : String → Int) {sortDepth : List (CleanRow K) → List (CleanRow K)}
    {sortDiam : SizeTable K → SizeTable K} (h1 : SortsBy (fun r => r.depth) sortDepth)
    (h2 : SortsBy (fun r : String × K => r.2) sortDiam) (cdf : SizeTable K)
    (rows layers : List (CleanRow K)) (hp : rows.Perm layers)
    (hl : layers.Pairwise (fun a b => a.depth < b.depth)) (hne : layers ≠ [])
    (hd : ∀ r ∈ layers, Drawable cdf r.label) :
    ∃ (out : List (RangeRow K)) (src : String → String),
      stratRanges hash sortDepth sortDiam cdf rows = .ok out ∧
      out.length = 2 * layers.length + 1 ∧
      (∀ r ∈ layers, ∀ ns, Names r.label ns → Largest cdf ns (src r.label)) ∧
      (∀ (k : Nat) (r : CleanRow K) (j : Nat), layers[k]? = some r →
        (j = 2 * k ∨ j = 2 * k + 1 ∨ k + 1 = layers.length ∧ j = 2 * k + 2) →
        ∃ o, out[j]? = some o ∧ o.label = r.label ∧ o.hatchlabel = src r.label ∧
          o.hatch = patternOf hash (src r.label) ∧
          (j ≠ 2 * k → o.depth = r.depth ∧ o.icepct = r.icepct) ∧
          (j = 2 * k → layerTop layers k = some o.depth)) := by
  have hsd := sorted_twice sortDepth h1 rows layers hp hl
  have hn : 0 < layers.length := List.length_pos_of_ne_nil hne
  -- sources
  let src : String → String := fun l => match hatchSource sortDiam cdf l with
    | .ok s => s
    | .error _ => l
  have hsrc : ∀ r ∈ layers, hatchSource sortDiam cdf r.label = .ok (src r.label) ∧
      src r.label ∈ labelLiths r.label ∧ ∀ ns, Names r.label ns → Largest cdf ns (src r.label) := by
    intro r hr
    obtain ⟨s, hs, hs2, hs3⟩ := hatchSource_ok h2 (hd r hr)
    have : src r.label = s := by simp only [src, hs]
    rw [this]
    exact ⟨hs, hs2, hs3⟩
  -- the doubled table
  obtain ⟨s0, ss, hss⟩ := List.exists_cons_of_ne_nil (l := twice layers) (by
    intro h
    have := twice_length layers
    rw [h, List.length_nil] at this
    omega)
  obtain ⟨labels, hlabels⟩ : ∃ t, t = (twice layers).map (·.label) ++ [(ss.getLastD s0).label] :=
    ⟨_, rfl⟩
  obtain ⟨cells, hcells⟩ : ∃ t : List (K × Option K),
      t = (0, some 0) :: (twice layers).map (fun s => (s.depth, s.icepct)) := ⟨_, rfl⟩
  have hlast : ∀ r, layers[layers.length - 1]? = some r → ss.getLastD s0 = r := by
    intro r hr
    have e1 : (s0 :: ss).getLast? = some (ss.getLastD s0) := by
      cases ss <;> simp [List.getLast?_cons]
    rw [← hss, List.getLast?_eq_getElem?, twice_get, twice_length] at e1
    have : (2 * layers.length - 1) / 2 = layers.length - 1 := by omega
    rw [this, hr] at e1
    exact (Option.some.inj e1).symm
  have hlab : ∀ (k : Nat) (r : CleanRow K) (j : Nat), layers[k]? = some r →
      (j = 2 * k ∨ j = 2 * k + 1 ∨ k + 1 = layers.length ∧ j = 2 * k + 2) →
      labels[j]? = some r.label := by
    intro k r j hk hj
    have hkl := (List.getElem?_eq_some_iff.1 hk).1
    rw [hlabels]
    by_cases hc : j < 2 * layers.length
    · rw [List.getElem?_append_left (by simp [twice_length, hc]), List.getElem?_map, twice_get]
      have : j / 2 = k := by omega
      rw [this, hk]; rfl
    · have hk2 : k = layers.length - 1 := by omega
      have hj2 : j = ((twice layers).map (·.label)).length := by
        simp [twice_length]; omega
      rw [hj2, List.getElem?_append_right (le_refl _)]
      simp only [Nat.sub_self, List.getElem?_cons_zero]
      rw [hlast r (by rw [← hk2]; exact hk)]
  obtain ⟨key, hkey, hkeyget⟩ := lithKey_get hash (labels.flatMap labelLiths)
  have hlen : (cells.zip labels).length = 2 * layers.length + 1 := by
    rw [List.length_zip, hcells, hlabels]
    simp [twice_length]
  have hlabmem : ∀ l ∈ labels, ∃ r ∈ layers, r.label = l := by
    intro l hl
    obtain ⟨j, hj⟩ := List.mem_iff_getElem?.1 hl
    have hjl := (List.getElem?_eq_some_iff.1 hj).1
    have hjl2 : j < 2 * layers.length + 1 := by
      rw [hlabels] at hjl; simpa [twice_length] using hjl
    obtain ⟨k, hk, hkj⟩ : ∃ k, k < layers.length ∧
        (j = 2 * k ∨ j = 2 * k + 1 ∨ k + 1 = layers.length ∧ j = 2 * k + 2) := by
      by_cases hc : j < 2 * layers.length
      · exact ⟨j / 2, by omega, by omega⟩
      · exact ⟨layers.length - 1, by omega, by omega⟩
    have := hlab k _ j (List.getElem?_eq_getElem hk) hkj
    rw [hj] at this
    exact ⟨_, List.getElem_mem hk, (Option.some.inj this).symm⟩
  have hone : ∀ c ∈ cells.zip labels, (do
      let src ← hatchSource sortDiam cdf c.2
      let h ← key.get src
      (.ok { depth := c.1.1, icepct := c.1.2, label := c.2, hatch := h, hatchlabel := src } :
        Except PyErr (RangeRow K))) =
      .ok { depth := c.1.1, icepct := c.1.2, label := c.2, hatch := patternOf hash (src c.2),
            hatchlabel := src c.2 } := by
    intro c hc
    have hc2 : c.2 ∈ labels := (List.of_mem_zip hc).2
    obtain ⟨r, hr, hrl⟩ := hlabmem c.2 hc2
    obtain ⟨e1, e2, -⟩ := hsrc r hr
    rw [hrl] at e1 e2
    have e3 := hkeyget (src c.2) (List.mem_flatMap.2 ⟨c.2, hc2, e2⟩)
    simp only [bind, Except.bind, e1, e3]
  refine ⟨(cells.zip labels).map (fun c => { depth := c.1.1, icepct := c.1.2, label := c.2, hatch := patternOf hash (src c.2), hatchlabel := src c.2 }), src, ?_, ?_, ?_, ?_⟩
  · unfold stratRanges
    rw [hsd, hss]
    simp only []
    rw [← hss, ← hlabels, ← hcells, hkey]
    exact mapM_eq_map _ _ _ hone
  · rw [List.length_map, hlen]
  · intro r hr
    exact (hsrc r hr).2.2
  · intro k r j hk hj
    have hkl := (List.getElem?_eq_some_iff.1 hk).1
    have e1 := hlab k r j hk hj
    have hjc : j < cells.length := by
      rw [hcells]; simp [twice_length]; omega
    have e2 : (cells.zip labels)[j]? = some (cells[j], r.label) := by
      rw [List.getElem?_zip_eq_some]
      exact ⟨List.getElem?_eq_getElem hjc, e1⟩
    have e3 : cells[j]? = some cells[j] := List.getElem?_eq_getElem hjc
    refine ⟨_, by rw [List.getElem?_map, e2]; rfl, rfl, rfl, rfl, ?_, ?_⟩
    · intro hj2
      obtain ⟨i, rfl⟩ : ∃ i, j = i + 1 := ⟨j - 1, by omega⟩
      have : cells[i + 1]? = some (r.depth, r.icepct) := by
        rw [hcells, List.getElem?_cons_succ, List.getElem?_map, twice_get]
        have : i / 2 = k := by omega
        rw [this, hk]; rfl
      rw [e3] at this
      have := Option.some.inj this
      exact ⟨by rw [this], by rw [this]⟩
    · rintro rfl
      cases k with
      | zero =>
        have : cells[2 * 0]? = some (0, some 0) := by rw [hcells]; rfl
        rw [e3] at this
        rw [Option.some.inj this]; rfl
      | succ k =>
        have hk' : k < layers.length := by omega
        have : cells[2 * (k + 1)]? = some (layers[k].depth, layers[k].icepct) := by
          have hq : 2 * (k + 1) = (2 * k + 1) + 1 := by ring
          rw [hq, hcells, List.getElem?_cons_succ, List.getElem?_map, twice_get]
          have : (2 * k + 1) / 2 = k := by omega
          rw [this, List.getElem?_eq_getElem hk']; rfl
        rw [e3] at this
        rw [Option.some.inj this]
        change layers[k]?.map (·.depth) = _
        rw [List.getElem?_eq_getElem hk']; rfl

/-- The row of a depth inside a layer: an area covers it exactly if it has the hatch of the
layer. -/
theorem covers_iff {layers : List (CleanRow K)} (hl : layers.Pairwise (fun a b => a.depth < b.depth))
    {out : List (RangeRow K)} {hat : String → String}
    (hlen : out.length = 2 * layers.length + 1)
    (hout : ∀ (k : Nat) (r : CleanRow K) (j : Nat), layers[k]? = some r →
        (j = 2 * k ∨ j = 2 * k + 1 ∨ k + 1 = layers.length ∧ j = 2 * k + 2) →
        ∃ o, out[j]? = some o ∧ o.hatch = hat r.label ∧ (j ≠ 2 * k → o.depth = r.depth) ∧
          (j = 2 * k → layerTop layers k = some o.depth))
    {k : Nat} {r : CleanRow K} {d : K} (hk : layers[k]? = some r) (hin : Inside layers k d)
    {o : RangeRow K} :
    Area.covers ⟨spansOf o.hatch out, o.icepct, o.hatch, o.hatchlabel⟩ d = true ↔
      o.hatch = hat r.label := by
  obtain ⟨r', top, hr', htop, hd1, hd2⟩ := hin
  rw [hk] at hr'
  cases hr'
  have hkl := (List.getElem?_eq_some_iff.1 hk).1
  unfold Area.covers
  rw [List.any_eq_true]
  constructor
  · rintro ⟨s, hs, hc⟩
    rw [decide_eq_true_eq] at hc
    obtain ⟨j, a, b, ha, hb, hah, hbh, rfl⟩ := (spansOf_mem _ _ _).1 hs
    have hjl : j + 1 < 2 * layers.length + 1 := by
      rw [← hlen]; exact (List.getElem?_eq_some_iff.1 hb).1
    simp only at hc
    -- the layer of row j
    have hm : j / 2 < layers.length := by omega
    have hme := List.getElem?_eq_getElem hm
    obtain ⟨x, hx, hxh, hx1, hx2⟩ := hout (j / 2) _ j hme (by omega)
    rw [ha] at hx
    cases hx
    rcases Nat.even_or_odd' j with ⟨m, rfl | rfl⟩
    · have e : 2 * m / 2 = m := by omega
      simp only [e] at hm hme hx1 hx2 hxh
      obtain ⟨y, hy, hyh, hy1, -⟩ := hout m _ (2 * m + 1) (List.getElem?_eq_getElem hm) (by omega)
      rw [hb] at hy
      cases hy
      have hbd := hy1 (by omega)
      have had := hx2 trivial
      rw [hbd] at hc
      have hmk : m = k := by
        obtain ⟨hkl', hke⟩ := List.getElem?_eq_some_iff.1 hk
        rcases Nat.lt_trichotomy m k with h | h | h
        · exfalso
          obtain ⟨k', rfl⟩ : ∃ k', k = k' + 1 := ⟨k - 1, by omega⟩
          have hk'l : k' < layers.length := by omega
          change layers[k']?.map (·.depth) = some top at htop
          rw [List.getElem?_eq_getElem hk'l] at htop
          simp only [Option.map_some, Option.some.injEq] at htop
          have : layers[m].depth ≤ layers[k'].depth := by
            rcases Nat.lt_or_ge m k' with h' | h'
            · exact (List.pairwise_iff_getElem.1 hl m k' hm hk'l h').le
            · have : m = k' := by omega
              subst this; exact le_rfl
          rw [htop] at this
          exact absurd (hc.2.trans_le this) (not_lt.2 hd1.le)
        · exact h
        · exfalso
          obtain ⟨m', rfl⟩ : ∃ m', m = m' + 1 := ⟨m - 1, by omega⟩
          have hm'l : m' < layers.length := by omega
          change layers[m']?.map (·.depth) = some a.depth at had
          rw [List.getElem?_eq_getElem hm'l] at had
          simp only [Option.map_some, Option.some.injEq] at had
          have : r.depth ≤ layers[m'].depth := by
            rw [← hke]
            rcases Nat.lt_or_ge k m' with h' | h'
            · exact (List.pairwise_iff_getElem.1 hl k m' hkl' hm'l h').le
            · have : k = m' := by omega
              subst this; exact le_rfl
          rw [had] at this
          exact absurd (hd2.trans_le this) (not_lt.2 hc.1.le)
      subst hmk
      rw [List.getElem?_eq_getElem hm] at hk
      cases hk
      rw [← hah, hxh]
    · exfalso
      have e : (2 * m + 1) / 2 = m := by omega
      simp only [e] at hm hme hx1 hx2 hxh
      have had := hx1 (by omega)
      by_cases hm1 : m + 1 < layers.length
      · obtain ⟨y, hy, -, -, hy2⟩ := hout (m + 1) _ (2 * m + 1 + 1)
          (List.getElem?_eq_getElem hm1) (by omega)
        rw [hb] at hy
        cases hy
        have hbd := hy2 (by omega)
        change layers[m]?.map (·.depth) = _ at hbd
        rw [List.getElem?_eq_getElem hm] at hbd
        simp only [Option.map_some, Option.some.injEq] at hbd
        rw [had, ← hbd] at hc
        exact lt_asymm hc.1 hc.2
      · obtain ⟨y, hy, -, hy1, -⟩ := hout m _ (2 * m + 1 + 1)
          (List.getElem?_eq_getElem hm) (by omega)
        rw [hb] at hy
        cases hy
        rw [had, hy1 (by omega)] at hc
        exact lt_asymm hc.1 hc.2
  · intro ho
    obtain ⟨x, hx, hxh, -, hx2⟩ := hout k r (2 * k) hk (by omega)
    obtain ⟨y, hy, hyh, hy1, -⟩ := hout k r (2 * k + 1) hk (by omega)
    refine ⟨(x.depth, y.depth), (spansOf_mem _ _ _).2 ⟨2 * k, x, y, hx, hy, ?_, ?_, rfl⟩, ?_⟩
    · simp only [ho, hxh]
    · simp only [ho, hyh]
    · have e := hx2 rfl
      rw [htop] at e
      rw [decide_eq_true_eq, hy1 (by omega), ← Option.some.inj e]
      exact ⟨hd1, hd2⟩

end MoonPIES
