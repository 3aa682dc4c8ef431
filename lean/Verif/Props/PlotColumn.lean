import Verif.Lemmas.PlotColumn
import Verif.Props.PlotStrat
import Verif.Props.MainPhysical

/-!
# C86: from a run to its picture
-/

namespace MoonPIES

open Spec

set_option linter.unusedSectionVars false

variable {K : Type} [Field K] [LinearOrder K] [IsStrictOrderedRing K] [FloorRing K]

/-- Spec: labels that cannot be mistaken for a row of another kind and whose sources are listed. -/
def Spec.GoodSource (cdf : SizeTable K) (src : String) : Prop :=
  src = "" ∨ src ≠ "Formation age" ∧ src ≠ "Other" ∧ Drawable cdf src

theorem drawable_single (cdf : SizeTable K) {s : String} (h : ',' ∉ s.toList) : Drawable cdf s :=
  ⟨[s], names_single h, Or.inl rfl⟩

/-- **C86** the picture of a table: it fails exactly if there are layers but none is thick enough;
otherwise the title gives the first model time after the formation of the trap, and at each depth one
sees the uppermost layer, among those thick enough, whose base lies below.  Whatever lies above such a
layer and is too thin is covered by it, whatever thin lies below all of them is not drawn. -/
theorem C86_column_partial (hash : String → Int)
    {sortDepth : List (CleanRow K) → List (CleanRow K)} {sortDiam : SizeTable K → SizeTable K}
    (h1 : SortsBy (fun r => r.depth) sortDepth) (h2 : SortsBy (fun r : String × K => r.2) sortDiam)
    (cdf : SizeTable K) (minThick thickMin tol age : K) (steps : List (Step K)) (h0 : 0 ≤ thickMin)
    (hpos : ∀ s ∈ steps, 0 ≤ s.ice ∧ 0 ≤ s.ejecta) (hsrc : ∀ s ∈ steps, GoodSource cdf s.src)
    (table : List (StratRow K)) (h : makeStratCol thickMin tol true age steps = .ok table) :
    ((∃ e, plotColumn hash sortDepth sortDiam cdf minThick table = .error e) ↔
      (∃ r ∈ table, r.label ≠ "Formation age") ∧ ∀ r, ¬ Kept minThick table r) ∧
    ∀ d, plotColumn hash sortDepth sortDiam cdf minThick table = .ok d →
      (∃ s later, steps.filter (fun s => decide (s.time < age + |age| * tol)) = s :: later ∧
        d.age = s.time) ∧
      d.clean = (table.filter (fun r => decide (r.label ≠ "Formation age" ∧ r.label ≠ "Other" ∧
        minThick ≤ r.ice + r.ejecta))).map (fun r =>
          ⟨r.toP, some (100 * r.ice / (r.ice + r.ejecta))⟩) ∧
      ∃ hat, Picture hash cdf minThick table hat d.areas := by
  obtain ⟨s, later, f, rest, hs, rfl, hf1, hf2, hrest, hch, hlab⟩ := table_parts h0 hpos (by
    intro s hs e
    rcases hsrc s hs with h | ⟨h, -⟩
    · rw [e] at h; exact absurd h (by decide)
    · exact h e) h
  obtain ⟨c1, c2, c3, -⟩ := C22_depth_cumulative _ _ _ _ _ _ h
  have c2' : ∀ r, rest.getLast? = some r → r.depth = r.ice + r.ejecta := by
    intro r hr
    apply c2
    cases rest with
    | nil => cases hr
    | cons a l => rw [List.getLast?_cons_cons]; exact hr
  have c3' : ∀ (i : Nat) r r', rest[i]? = some r → rest[i + 1]? = some r' →
      r.depth = r'.depth + (r.ice + r.ejecta) := by
    intro i r r' hr hr'
    exact c3 (i + 1) r r' (by rw [List.getElem?_cons_succ]; exact hr)
      (by rw [List.getElem?_cons_succ]; exact hr')
  have hF : (f :: rest).filter (fun r => decide (r.label = "Formation age")) = [f] := by
    rw [List.filter_cons_of_pos (by simp [hf1]), List.filter_eq_nil_iff.2]
    intro r hr
    simp [(hrest r hr).1]
  have hN : (f :: rest).filter (fun r => decide (r.label ≠ "Formation age")) = rest := by
    rw [List.filter_cons_of_neg (by simp [hf1]), List.filter_eq_self.2]
    intro r hr
    simp [(hrest r hr).1]
  have hK : (f :: rest).filter (fun r => decide (r.label ≠ "Formation age" ∧ r.label ≠ "Other" ∧
      minThick ≤ r.ice + r.ejecta)) =
      rest.filter (fun r => decide (r.label ≠ "Other" ∧ minThick ≤ r.ice + r.ejecta)) := by
    rw [List.filter_cons_of_neg (by simp [hf1])]
    apply List.filter_congr
    intro r hr
    simp [(hrest r hr).1]
  have hkept : ∀ r, Kept minThick (f :: rest) r ↔
      r ∈ rest.filter (fun r => decide (r.label ≠ "Other" ∧ minThick ≤ r.ice + r.ejecta)) := by
    intro r
    rw [← hK, List.mem_filter, decide_eq_true_eq]
    exact Iff.rfl
  rw [hK]
  obtain ⟨thick, hth⟩ : ∃ t, t = rest.filter
    (fun r => decide (r.label ≠ "Other" ∧ minThick ≤ r.ice + r.ejecta)) := ⟨_, rfl⟩
  rw [← hth] at hkept ⊢
  have htl : thickLayers minThick (rest.map StratRow.toP) = thick.map StratRow.toP := by
    rw [hth]; exact thickLayers_table minThick rest c2' c3'
  have hthm : ∀ r ∈ thick, r ∈ rest := by
    rw [hth]; intro r hr; exact List.mem_of_mem_filter hr
  obtain ⟨k1, k2⟩ := C69_fails_iff minThick (rest.map StratRow.toP)
  have hplot : plotColumn hash sortDepth sortDiam cdf minThick (f :: rest) =
      (cleanUp minThick (rest.map StratRow.toP)).bind (fun x =>
        (stratRanges hash sortDepth sortDiam cdf x.2).bind (fun strat =>
          .ok { age := f.time, clean := x.2, areas := plotAreas strat, strat := strat })) := by
    unfold plotColumn
    rw [hF, hN]
    rfl
  have hchP : (rest.map StratRow.toP).IsChain (fun a b => a.label ≠ b.label) := by
    rw [List.isChain_map]; exact hch
  -- the cleaned table
  have hclean : ∀ marked out, cleanUp minThick (rest.map StratRow.toP) = .ok (marked, out) →
      out = thick.map (fun r => ⟨r.toP, some (100 * r.ice / (r.ice + r.ejecta))⟩) := by
    intro marked out ho
    have e1 := cleanUp_thick hchP ho
    have e2 := cleanUp_pct ho
    rw [htl] at e1
    have hpos' : ∀ r ∈ thick, r.ice + r.ejecta ≠ 0 := fun r hr => (hrest r (hthm r hr)).2.ne'
    clear htl hkept hth hthm ho
    induction thick generalizing out with
    | nil => simpa using e1
    | cons r l ih =>
      cases out with
      | nil => simp at e1
      | cons o os =>
        simp only [List.map_cons, List.cons.injEq] at e1 ⊢
        refine ⟨?_, ih os e1.2 (fun x hx => e2 x (List.mem_cons_of_mem _ hx))
          (fun x hx => hpos' x (List.mem_cons_of_mem _ hx))⟩
        have hp := e2 o (by simp)
        have ei : o.ice = r.ice := congrArg PRow.ice e1.1
        have ee : o.ejecta = r.ejecta := congrArg PRow.ejecta e1.1
        rw [ei, ee, if_neg (hpos' r (by simp))] at hp
        cases o
        simp only [CleanRow.mk.injEq]
        exact ⟨e1.1, hp⟩
  -- the layers from the top
  obtain ⟨layers, hlay⟩ : ∃ t : List (CleanRow K), t = (thick.map (fun r =>
    (⟨r.toP, some (100 * r.ice / (r.ice + r.ejecta))⟩ : CleanRow K))).reverse := ⟨_, rfl⟩
  have hmemL : ∀ l, l ∈ layers ↔ ∃ r ∈ thick,
      l = ⟨r.toP, some (100 * r.ice / (r.ice + r.ejecta))⟩ := by
    intro l
    rw [hlay, List.mem_reverse, List.mem_map]
    exact ⟨fun ⟨r, hr, e⟩ => ⟨r, hr, e.symm⟩, fun ⟨r, hr, e⟩ => ⟨r, hr, e.symm⟩⟩
  have hdesc : rest.Pairwise (fun a b => b.depth < a.depth) := by
    have hc : rest.IsChain (fun a b : StratRow K => b.depth < a.depth) := by
      rw [List.isChain_iff_getElem]
      intro i hi
      have := c3' i _ _ (List.getElem?_eq_getElem (by omega)) (List.getElem?_eq_getElem hi)
      have hp := (hrest _ (List.getElem_mem (show i < rest.length by omega))).2
      linarith
    have : IsTrans (StratRow K) (fun a b => b.depth < a.depth) := ⟨fun _ _ _ h h' => h'.trans h⟩
    exact List.isChain_iff_pairwise.1 hc
  have hsorted : layers.Pairwise (fun a b => a.depth < b.depth) := by
    rw [hlay, List.pairwise_reverse, List.pairwise_map]
    rw [hth]
    exact hdesc.filter _
  have hdraw : ∀ l ∈ layers, Drawable cdf l.label := by
    intro l hl
    obtain ⟨r, hr, rfl⟩ := (hmemL l).1 hl
    obtain ⟨st, hst, hcase⟩ := hlab r (hthm r hr)
    change Drawable cdf r.label
    rcases hcase with ⟨e, hne⟩ | e | e
    · rw [e]
      rcases hsrc st hst with h | ⟨-, -, h⟩
      · exact absurd h hne
      · exact h
    · rw [e]; exact drawable_single cdf (by decide)
    · rw [e]; exact drawable_single cdf (by decide)
  constructor
  · -- failure
    constructor
    · rintro ⟨e, he⟩
      rw [hplot] at he
      cases hcu : cleanUp minThick (rest.map StratRow.toP) with
      | error e' =>
        obtain ⟨m1, m2⟩ := k1.1 ⟨e', hcu⟩
        rw [htl] at m2
        have ht0 : thick = [] := List.map_eq_nil_iff.1 m2
        refine ⟨?_, ?_⟩
        · cases hre : rest with
          | nil => rw [hre] at m1; exact absurd rfl m1
          | cons x xs =>
            refine ⟨x, by simp, (hrest x (by rw [hre]; simp)).1⟩
        · intro r hr
          rw [hkept, ht0] at hr
          cases hr
      | ok x =>
        exfalso
        rw [hcu] at he
        obtain ⟨marked, out⟩ := x
        have hout := hclean marked out hcu
        simp only [Except.bind] at he
        by_cases hne : layers = []
        · have hout' : out = [] := by
            rw [hout]
            have := congrArg List.reverse hne
            rw [hlay, List.reverse_reverse] at this
            exact this
          have hsd : sortDepth ([] ++ [] : List (CleanRow K)) = [] :=
            List.perm_nil.1 (h1 []).1
          rw [hout'] at he
          unfold stratRanges at he
          rw [hsd] at he
          cases he
        · obtain ⟨o, ho, -⟩ := C84_ranges hash h1 h2 cdf out layers
            (by rw [hout, hlay]; exact (List.reverse_perm _).symm) hsorted hne hdraw
          rw [ho] at he
          cases he
    · rintro ⟨⟨r, hr, hrl⟩, hnone⟩
      have ht0 : thick = [] := by
        rw [List.eq_nil_iff_forall_not_mem]
        intro x hx
        exact hnone x ((hkept x).2 hx)
      have hre : rest.map StratRow.toP ≠ [] := by
        rw [ne_eq, List.map_eq_nil_iff]
        rintro rfl
        rw [List.mem_singleton] at hr
        rw [hr] at hrl
        exact hrl hf1
      obtain ⟨e, he⟩ := k1.2 ⟨hre, by rw [htl, ht0]; rfl⟩
      exact ⟨e, by rw [hplot, he]; rfl⟩
  · intro d hd
    rw [hplot] at hd
    cases hcu : cleanUp minThick (rest.map StratRow.toP) with
    | error e' => rw [hcu] at hd; cases hd
    | ok x =>
      rw [hcu] at hd
      obtain ⟨marked, out⟩ := x
      have hout := hclean marked out hcu
      simp only [Except.bind] at hd
      by_cases hne : layers = []
      · have ht0 : thick = [] := by
          rw [hlay, List.reverse_eq_nil_iff, List.map_eq_nil_iff] at hne
          exact hne
        have hout' : out = [] := by rw [hout, ht0]; rfl
        have hsd : sortDepth ([] ++ [] : List (CleanRow K)) = [] := List.perm_nil.1 (h1 []).1
        rw [hout'] at hd
        unfold stratRanges at hd
        rw [hsd] at hd
        simp only [Except.ok.injEq] at hd
        subst hd
        refine ⟨⟨s, later, hs, hf2⟩, by rw [ht0]; rfl, fun l => l, ?_⟩
        have hno : ∀ r, ¬ Kept minThick (f :: rest) r := by
          intro r hr
          rw [hkept, ht0] at hr
          cases hr
        exact ⟨fun r hr => absurd hr (hno r), fun _ r hr => absurd hr.1 (hno r),
          fun _ r hr => absurd hr.1 (hno r), fun _ _ => ⟨rfl, rfl⟩⟩
      · obtain ⟨strat, hat, ho, g1, g2, g3⟩ := C84_drawn hash h1 h2 cdf out layers
            (by rw [hout, hlay]; exact (List.reverse_perm _).symm) hsorted hne hdraw (by
              intro l hl
              obtain ⟨r, -, rfl⟩ := (hmemL l).1 hl
              simp)
        rw [ho] at hd
        simp only [Except.ok.injEq] at hd
        subst hd
        refine ⟨⟨s, later, hs, hf2⟩, hout, hat, ?_⟩
        -- a depth lies inside the layer of `r`
        have hin : ∀ d r, Uppermost minThick (f :: rest) d r → ∃ (k : Nat),
            layers[k]? = some ⟨r.toP, some (100 * r.ice / (r.ice + r.ejecta))⟩ ∧
            Inside layers k d := by
          intro d r ⟨hr, hd0, hdr, hup⟩
          obtain ⟨k, hk⟩ := List.mem_iff_getElem?.1 ((hmemL _).2 ⟨r, (hkept r).1 hr, rfl⟩)
          refine ⟨k, hk, ?_⟩
          cases k with
          | zero => exact ⟨_, 0, hk, rfl, hd0, hdr⟩
          | succ k =>
            have hkl := (List.getElem?_eq_some_iff.1 hk).1
            have hkl' : k < layers.length := by omega
            have hke := List.getElem?_eq_getElem hkl'
            refine ⟨_, layers[k].depth, hk, by
              have e : layerTop layers (k + 1) = (layers[k]?).map (fun x => x.depth) := rfl
              rw [e, hke]; rfl, ?_, hdr⟩
            obtain ⟨r', hr', e⟩ := (hmemL layers[k]).1 (List.getElem_mem hkl')
            have hlt : layers[k].depth < r.depth := by
              have := List.pairwise_iff_getElem.1 hsorted k (k + 1) hkl' hkl (by omega)
              rw [(List.getElem?_eq_some_iff.1 hk).2] at this
              exact this
            rw [e] at hlt ⊢
            exact hup r' ((hkept r').2 hr') hlt
        refine ⟨?_, ?_, ?_, ?_⟩
        · intro r hr ns hn
          exact g1 _ ((hmemL _).2 ⟨r, (hkept r).1 hr, rfl⟩) ns hn
        · intro d r hr
          obtain ⟨k, hk, hink⟩ := hin d r hr
          exact (g2 k _ d hk hink).1
        · intro d r hr
          obtain ⟨k, hk, hink⟩ := hin d r hr
          obtain ⟨-, m, l', hkm, hm, hml, hlast, hcol, hrec⟩ := g2 k _ d hk hink
          obtain ⟨r', hr', rfl⟩ := (hmemL l').1 (List.mem_of_getElem? hm)
          have hpw := List.pairwise_iff_getElem.1 hsorted
          have hkl := (List.getElem?_eq_some_iff.1 hk).1
          have hmL := (List.getElem?_eq_some_iff.1 hm).1
          refine ⟨r', (hkept r').2 hr', ?_, hml, ?_, (hrest r' (hthm r' hr')).2.ne', hcol, hrec⟩
          · rcases Nat.lt_or_ge k m with hlt | hge
            · have := hpw k m hkl hmL hlt
              rw [(List.getElem?_eq_some_iff.1 hk).2, (List.getElem?_eq_some_iff.1 hm).2] at this
              exact this.le
            · have : k = m := by omega
              subst this
              rw [hk] at hm
              have := congrArg (fun l => l.map (·.depth)) hm
              simp only [Option.map_some, Option.some.injEq] at this
              exact this.le
          · intro r'' hr'' hlt
            obtain ⟨m', hm'⟩ := List.mem_iff_getElem?.1 ((hmemL _).2 ⟨r'', (hkept r'').1 hr'', rfl⟩)
            have hmL' := (List.getElem?_eq_some_iff.1 hm').1
            refine hlast m' _ ?_ hm'
            by_contra hle
            rcases Nat.lt_or_ge m' m with h' | h'
            · have := hpw m' m hmL' hmL h'
              rw [(List.getElem?_eq_some_iff.1 hm').2, (List.getElem?_eq_some_iff.1 hm).2] at this
              exact lt_asymm this hlt
            · have : m = m' := by omega
              subst this
              rw [hm] at hm'
              have := congrArg (fun l => l.map (·.depth)) hm'
              simp only [Option.map_some, Option.some.injEq] at this
              exact hlt.ne this
        · intro d hall
          apply g3
          intro l hl
          obtain ⟨r, hr, rfl⟩ := (hmemL l).1 hl
          exact hall r ((hkept r).2 hr)

/-- **C86** inside a layer that is thick enough one sees that layer. -/
theorem C86_own_layer (minThick thickMin tol age : K) (saa : Bool) (steps : List (Step K))
    (hpos : ∀ s ∈ steps, 0 ≤ s.ice ∧ 0 ≤ s.ejecta) (table : List (StratRow K))
    (h : makeStratCol thickMin tol saa age steps = .ok table) (r : StratRow K)
    (hr : Kept minThick table r) (d : K) (hd : r.depth - (r.ice + r.ejecta) < d)
    (hd' : d < r.depth) : Uppermost minThick table d r := by
  obtain ⟨-, c2, c3, -⟩ := C22_depth_cumulative _ _ _ _ _ _ h
  have hmono := C22_depth_monotone _ _ _ _ _ hpos _ h
  obtain ⟨i, hi⟩ := List.mem_iff_getElem?.1 hr.1
  have htop : 0 ≤ r.depth - (r.ice + r.ejecta) ∧ ∀ (j : Nat) r', i < j → table[j]? = some r' →
      r'.depth ≤ r.depth - (r.ice + r.ejecta) := by
    cases hn : table[i + 1]? with
    | none =>
      have hlast : table.getLast? = some r := by
        rw [List.getLast?_eq_getElem?]
        have h1 := (List.getElem?_eq_some_iff.1 hi).1
        rw [List.getElem?_eq_none_iff] at hn
        rw [show table.length - 1 = i by omega]; exact hi
      rw [c2 r hlast]
      refine ⟨by rw [sub_self], ?_⟩
      intro j r' hj hr'
      have h1 := (List.getElem?_eq_some_iff.1 hr').1
      rw [List.getElem?_eq_none_iff] at hn
      omega
    | some n =>
      have e := c3 i r n hi hn
      refine ⟨?_, ?_⟩
      · have := (hmono (i + 1) (i + 1) n n le_rfl hn hn).1
        linarith
      · intro j r' hj hr'
        have := (hmono (i + 1) j n r' hj hn hr').2
        linarith
  refine ⟨hr, by linarith [htop.1], hd', ?_⟩
  intro r' hr' hlt
  obtain ⟨j, hj⟩ := List.mem_iff_getElem?.1 hr'.1
  rcases Nat.lt_or_ge i j with hij | hij
  · linarith [htop.2 j r' hij hj]
  · have := (hmono j i r' r hij hj hi).2
    exact absurd this (not_le.2 hlt)

/-- **C86** a table made without the formation row (`strat_after_age` off) cannot be drawn. -/
theorem C86_no_formation (hash : String → Int)
    (sortDepth : List (CleanRow K) → List (CleanRow K)) (sortDiam : SizeTable K → SizeTable K)
    (cdf : SizeTable K) (minThick thickMin tol age : K) (steps : List (Step K))
    (hsrc : ∀ s ∈ steps, s.src ≠ "Formation age") (table : List (StratRow K))
    (h : makeStratCol thickMin tol false age steps = .ok table) :
    plotColumn hash sortDepth sortDiam cdf minThick table = .error .indexError := by
  have hF : table.filter (fun r => decide (r.label = "Formation age")) = [] := by
    rw [List.filter_eq_nil_iff]
    intro r hr
    rw [decide_eq_true_eq]
    obtain ⟨top, rows, ⟨bs, hb, hs⟩, hrows, htop⟩ := C77_table thickMin tol age false steps table h
    rcases htop with ⟨-, rfl⟩ | ⟨hf, -⟩
    swap
    · cases hf
    obtain ⟨i, hi⟩ := List.mem_iff_getElem?.1 (List.mem_map_of_mem (f := StratRow.row) hr)
    have hil := (List.getElem?_eq_some_iff.1 hi).1
    have hl' : i < bs.length := by rw [hs.length_eq]; exact hil
    have hsum := (List.forall₂_iff_get.1 hs).2 i hl' hil
    rw [show (table.map StratRow.row).get ⟨i, hil⟩ = r.row from
      (List.getElem?_eq_some_iff.1 hi).2] at hsum
    obtain ⟨-, -, l, hl, e1, -⟩ := hsum
    have hlm : l ∈ rows := by
      rw [← List.nil_append rows, ← hb.flatten, List.mem_flatten]
      exact ⟨_, List.get_mem _ ⟨i, hl'⟩, List.mem_of_getLast? hl⟩
    obtain ⟨j, hj⟩ := List.mem_iff_getElem?.1 hlm
    have hjl := (List.getElem?_eq_some_iff.1 hj).1
    have hj' := hrows.length_eq ▸ hjl
    have hrow := (List.forall₂_iff_get.1 hrows).2 j hj' hjl
    rw [show rows.get ⟨j, hjl⟩ = l from (List.getElem?_eq_some_iff.1 hj).2] at hrow
    have hsm := (List.mem_filter.1 (List.get_mem _ ⟨j, hj'⟩)).1
    obtain ⟨-, -, -, hlab⟩ := hrow
    change r.label = l.label at e1
    rw [e1]
    rcases hlab with ⟨-, -, e⟩ | ⟨-, -, e⟩ | ⟨-, -, e⟩
    · rw [e]; exact hsrc _ hsm
    · rw [e]; decide
    · rw [e]; decide
  unfold plotColumn
  rw [hF]

/-- Three timesteps after the formation of a trap: thick ejecta, a thin layer of ice, thick ejecta;
then a thin layer of ice at the bottom of the column comes first. -/
def exThinSteps : List (Step ℚ) :=
  [⟨4, 1 / 2, 0, ""⟩, ⟨3, 0, 2, "Haworth"⟩, ⟨2, 1 / 2, 0, ""⟩, ⟨1, 0, 5, "Shoemaker"⟩]

/-- **C86 refuted** without thickness: inside the thin layer of ice between two of ejecta one sees
the ejecta below, and the thin layer at the bottom is left blank. -/
theorem C86_thin_refuted :
    ∃ table d r r', makeStratCol (1 / 10 : ℚ) (1 / 1000) true 4 exThinSteps = .ok table ∧
      plotColumn (fun s => s.length) (sortOn (·.depth)) (sortOn (·.2)) [] 1 table = .ok d ∧
      r ∈ table ∧ r' ∈ table ∧ r.label = "Ice" ∧ r'.label = "Ice" ∧ r.depth = 11 / 2 ∧
      r.ice = 1 / 2 ∧ r.ejecta = 0 ∧ hatchAt d.areas (21 / 4) = hatchAt d.areas 6 ∧
      hatchAt d.areas 6 ≠ some ".." ∧ hatchAt d.areas 6 ≠ none ∧
      r'.depth = 8 ∧ r'.ice = 1 / 2 ∧ r'.ejecta = 0 ∧ hatchAt d.areas (31 / 4) = none := by
  have hA : (makeStratCol (1 / 10 : ℚ) (1 / 1000) true 4 exThinSteps).map
      (fun t => t.map (fun r => (r.label, r.ice, r.ejecta, r.depth))) =
      .ok [("Formation age", 0, 0, 8), ("Ice", 1 / 2, 0, 8), ("Haworth", 0, 2, 15 / 2),
        ("Ice", 1 / 2, 0, 11 / 2), ("Shoemaker", 0, 5, 5)] := by decide +kernel
  have hB : ((makeStratCol (1 / 10 : ℚ) (1 / 1000) true 4 exThinSteps).bind
      (plotColumn (fun s => s.length) (sortOn (·.depth)) (sortOn (·.2)) [] 1)).map
      (fun d => (hatchAt d.areas (21 / 4), hatchAt d.areas 6, hatchAt d.areas (31 / 4))) =
      .ok (some "\\\\\\", some "\\\\\\", none) := by decide +kernel
  cases hm : makeStratCol (1 / 10 : ℚ) (1 / 1000) true 4 exThinSteps with
  | error e => rw [hm] at hA; cases hA
  | ok table =>
    rw [hm] at hA hB
    simp only [Except.map, Except.ok.injEq] at hA
    have hB' : (plotColumn (fun s => s.length) (sortOn (·.depth)) (sortOn (·.2)) [] 1 table).map
      (fun d => (hatchAt d.areas (21 / 4), hatchAt d.areas 6, hatchAt d.areas (31 / 4))) =
      .ok (some "\\\\\\", some "\\\\\\", none) := hB
    cases hp : plotColumn (fun s => s.length) (sortOn (·.depth)) (sortOn (·.2)) [] (1 : ℚ) table with
    | error e => rw [hp] at hB'; cases hB'
    | ok d =>
      rw [hp] at hB'
      simp only [Except.map, Except.ok.injEq, Prod.mk.injEq] at hB'
      obtain ⟨q1, q2, q3⟩ := hB'
      obtain ⟨r, hr, er⟩ := List.mem_map.1 (show ("Ice", (1 / 2 : ℚ), (0 : ℚ), (11 / 2 : ℚ)) ∈
        table.map (fun r => (r.label, r.ice, r.ejecta, r.depth)) by rw [hA]; simp)
      obtain ⟨r', hr', er'⟩ := List.mem_map.1 (show ("Ice", (1 / 2 : ℚ), (0 : ℚ), (8 : ℚ)) ∈
        table.map (fun r => (r.label, r.ice, r.ejecta, r.depth)) by rw [hA]; simp)
      simp only [Prod.mk.injEq] at er er'
      refine ⟨table, d, r, r', rfl, hp, hr, hr', er.1, er'.1, er.2.2.2, er.2.1, er.2.2.1, ?_, ?_, ?_,
        er'.2.2.2, er'.2.1, er'.2.2.1, q3⟩
      · rw [q1, q2]
      · rw [q2]; decide
      · rw [q2]; decide

/-- The label of a join of names tells whether it is one of the fixed labels. -/
theorem join_good_source {cdf : SizeTable K} {ns : List String} (hfree : ∀ n ∈ ns, ',' ∉ n.toList)
    (hn : ∀ n ∈ ns, n ≠ "Formation age" ∧ n ≠ "Other") (hcdf : ∀ n ∈ ns, ∃ d, (n, d) ∈ cdf) :
    GoodSource cdf (joinComma ns) := by
  cases ns with
  | nil => left; rfl
  | cons a l =>
    right
    have hne : ∀ x : String, ',' ∉ x.toList → (∀ n ∈ a :: l, n ≠ x) → joinComma (a :: l) ≠ x := by
      intro x hx hno e
      cases l with
      | nil =>
        apply hno a (by simp)
        rw [← e, joinComma]
      | cons b l =>
        apply hx
        rw [← e, joinComma, String.toList_append, String.toList_append]
        simp
    refine ⟨hne _ (by decide) (fun n h => (hn n h).1), hne _ (by decide) (fun n h => (hn n h).2),
      a :: l, ⟨rfl, by simp, hfree⟩, Or.inr hcdf⟩

variable {σ : Type}

/-- **C86** the picture of a run: for every trap, if some layer is thick enough, its picture can be
drawn and shows, at each depth inside a layer thick enough, that layer. -/
theorem C86_run_picture_partial (g : Gen σ) (hg : LawfulGen g) (c : RunCfg) (d : RunData)
    (hc : PhysicalCfg c) (hd : PhysicalData c d) (hl : Lunar c d) (hnd : c.coldtrap_names.Nodup)
    (hafter : c.strat_after_age = true) (hmin : 0 ≤ c.thickness_min)
    (hash : String → Int) {sortDepth : List (CleanRow ℝ) → List (CleanRow ℝ)}
    {sortDiam : SizeTable ℝ → SizeTable ℝ} (h1 : SortsBy (fun r => r.depth) sortDepth)
    (h2 : SortsBy (fun r : String × ℝ => r.2) sortDiam) (cdf : SizeTable ℝ) (minThick : ℝ)
    (hnames : ∀ r ∈ d.craters ++ d.basins, GoodName r.cname ∧ ',' ∉ r.cname.toList ∧
      r.cname ≠ "Formation age" ∧ r.cname ≠ "Other" ∧ ∃ x, (r.cname, x) ∈ cdf)
    (out : CsvOut) (hrun : runMain g c d = .ok out) :
    ∀ name ∈ c.coldtrap_names, ∃ table, out.strat.get name = .ok table ∧
      ∀ r, Kept minThick table r → ∃ p hat,
        plotColumn hash sortDepth sortDiam cdf minThick table = .ok p ∧
        Picture hash cdf minThick table hat p.areas ∧
        ∀ x, r.depth - (r.ice + r.ejecta) < x → x < r.depth →
          hatchAt p.areas x = some (hat r.label) := by
  obtain ⟨df, s, time, e1, e2, e3⟩ := run_steps_nonneg g hg c d hc hd hl hnd out hrun
  intro name hn
  obtain ⟨trap, -, -, steps, table, -, -, a3, -, a5, a6, th, b1, b2⟩ := e3 name hn
  refine ⟨table, a3, ?_⟩
  rw [hafter] at a5
  have hsrc : ∀ st ∈ steps, GoodSource cdf st.src := by
    intro st hst
    obtain ⟨i, hi⟩ := List.mem_iff_getElem?.1 hst
    rw [b2 (fun r hr => (hnames r hr).1) i st hi]
    have hq : ∀ n ∈ Sources RunCfg.rtol c.thickness_min time df th i, ∃ q ∈ d.craters ++ d.basins,
        q.cname = n := by
      intro n hn'
      unfold Sources at hn'
      obtain ⟨p, hp, rfl⟩ := List.mem_map.1 hn'
      exact df_names g c d hd.sorted _ _ _ e1 p.1 (List.of_mem_zip (List.mem_of_mem_filter hp)).1
    apply join_good_source
    · intro n hn'
      obtain ⟨q, q1, rfl⟩ := hq n hn'
      exact (hnames q q1).2.1
    · intro n hn'
      obtain ⟨q, q1, rfl⟩ := hq n hn'
      exact ⟨(hnames q q1).2.2.1, (hnames q q1).2.2.2.1⟩
    · intro n hn'
      obtain ⟨q, q1, rfl⟩ := hq n hn'
      exact (hnames q q1).2.2.2.2
  obtain ⟨k1, k2⟩ := C86_column_partial hash h1 h2 cdf minThick _ _ _ steps hmin a6 hsrc table a5
  intro r hr
  cases hp : plotColumn hash sortDepth sortDiam cdf minThick table with
  | error e => exact absurd hr ((k1.1 ⟨e, hp⟩).2 r)
  | ok p =>
    obtain ⟨-, -, hat, hpic⟩ := k2 p hp
    exact ⟨p, hat, rfl, hpic, fun x hx hx' =>
      hpic.seen x r (C86_own_layer _ _ _ _ _ _ a6 _ a5 r hr x hx hx')⟩

/-- The hypotheses of `C86_column_partial` and `C86_own_layer`: the upper ejecta is kept, the ice
above the lower ejecta is not, and the picture can be drawn. -/
example : (0 : ℚ) ≤ 1 / 10 ∧ (∀ s ∈ exThinSteps, 0 ≤ s.ice ∧ 0 ≤ s.ejecta) ∧
    (∀ s ∈ exThinSteps, GoodSource [("Haworth", (51 : ℚ))] s.src) ∧
    (makeStratCol (1 / 10 : ℚ) (1 / 1000) true 4 exThinSteps).isOk = true := by
  refine ⟨by norm_num, by decide +kernel, ?_, by decide +kernel⟩
  intro s hs
  simp only [exThinSteps, List.mem_cons, List.not_mem_nil, or_false] at hs
  rcases hs with rfl | rfl | rfl | rfl
  · exact Or.inl rfl
  · exact Or.inr ⟨by decide, by decide, drawable_single _ (by decide)⟩
  · exact Or.inl rfl
  · exact Or.inr ⟨by decide, by decide, drawable_single _ (by decide)⟩

/-- The picture of a table of minor layers only cannot be drawn. -/
example : (makeStratCol (1 / 10 : ℚ) (1 / 1000) true 4 [⟨4, 1 / 2, 0, ""⟩]).bind
    (fun t => (plotColumn (fun s => s.length) (sortOn (·.depth)) (sortOn (·.2)) [] 1 t).map
      (fun d => d.age)) = .error .keyError := by decide +kernel

/-- Nor can one without the formation row. -/
example : (makeStratCol (1 / 10 : ℚ) (1 / 1000) false 4 exThinSteps).bind
    (fun t => (plotColumn (fun s => s.length) (sortOn (·.depth)) (sortOn (·.2)) [] 1 t).map
      (fun d => d.age)) = .error .indexError := by decide +kernel

/-- C86 of the shipped model with the sizes of its own lists: whatever layer of whatever trap is one
metre thick, its picture can be drawn and shows it. -/
example (g : Gen σ) (hg : LawfulGen g) (seed : Int) (hash : String → Int)
    (sortDepth : List (CleanRow ℝ) → List (CleanRow ℝ)) (sortDiam : SizeTable ℝ → SizeTable ℝ)
    (h1 : SortsBy (fun r => r.depth) sortDepth)
    (h2 : SortsBy (fun r : String × ℝ => r.2) sortDiam) :
    ∃ out, runMain g (RunCfg.default seed) (shippedData [] sortDesc id id) = .ok out ∧
      ∀ name ∈ (RunCfg.default seed).coldtrap_names, ∃ table, out.strat.get name = .ok table ∧
        ∀ r, Kept 1 table r → ∃ p, plotColumn hash sortDepth sortDiam
          ((craterFile ++ basinFile).map (fun r => (r.cname, r.diam))) 1 table = .ok p := by
  obtain ⟨⟨out, h⟩, -⟩ := C74_default_returns [] sortDesc id id g hg sortDesc_spec seed
  refine ⟨out, h, ?_⟩
  intro name hn
  have hb : ∀ r ∈ craterFile ++ basinFile, (decide (',' ∉ r.cname.toList) &&
      decide (r.cname ≠ "Formation age") && decide (r.cname ≠ "Other")) = true := by decide +kernel
  obtain ⟨table, t1, t2⟩ := C86_run_picture_partial g hg _ _ (default_physical seed)
    (default_data _ _ _ _ sortDesc_spec seed) (default_lunar _ _ _ _ seed)
    (default_runnable [] sortDesc id id seed).nodup rfl
    (by simp only [RunCfg.default]; norm_num) hash h1 h2
    ((craterFile ++ basinFile).map (fun r => (r.cname, r.diam))) 1 (by
      intro r hr
      obtain ⟨q, hq, rfl⟩ := shipped_rows _ _ _ _ hr
      have := hb q hq
      simp only [Bool.and_eq_true, decide_eq_true_eq] at this
      exact ⟨goodNameB_spec (shipped_good q hq), this.1.1, this.1.2, this.2, _,
        List.mem_map.2 ⟨q, hq, rfl⟩⟩) out h name hn
  refine ⟨table, t1, ?_⟩
  intro r hr
  obtain ⟨p, -, hp, -⟩ := t2 r hr
  exact ⟨p, hp⟩

end MoonPIES
