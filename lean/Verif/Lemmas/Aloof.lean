import Verif.Model.MainFrom
import Verif.Lemmas.TrapOrder
import Verif.Lemmas.Ties
import Verif.Lemmas.Main
import Mathlib.Data.List.InsertIdx

/-!
# Inserting a row that changes nothing
-/

namespace MoonPIES

variable {σ : Type}

theorem mapM_insertIdx {ε α β : Type} (f : α → Except ε β) {x : α} {y : β} (h : f x = .ok y) :
    ∀ (n : Nat) (l : List α), n ≤ l.length →
      (l.insertIdx n x).mapM f = (l.mapM f).map (fun m => m.insertIdx n y)
  | 0, l, _ => by
    rw [List.insertIdx_zero, List.mapM_cons, h]
    cases l.mapM f <;> rfl
  | n + 1, [], hn => by simp at hn
  | n + 1, a :: l, hn => by
    rw [List.insertIdx_succ_cons, List.mapM_cons, List.mapM_cons,
      mapM_insertIdx f h n l (by simpa using hn)]
    cases f a with
    | error e => rfl
    | ok b => cases l.mapM f <;> rfl

theorem zipWith_insertIdx {α β γ : Type} (f : α → β → γ) (x : α) (y : β) :
    ∀ (n : Nat) (l : List α) (m : List β), n ≤ l.length → n ≤ m.length →
      List.zipWith f (l.insertIdx n x) (m.insertIdx n y) = (List.zipWith f l m).insertIdx n (f x y)
  | 0, l, m, _, _ => by simp
  | n + 1, [], _, h, _ => by simp at h
  | n + 1, _ :: _, [], _, h => by simp at h
  | n + 1, a :: l, b :: m, h, h' => by
    rw [List.insertIdx_succ_cons, List.insertIdx_succ_cons, List.zipWith_cons_cons, List.zipWith_cons_cons,
      List.insertIdx_succ_cons, zipWith_insertIdx f x y n l m (by simpa using h) (by simpa using h')]

theorem zip_insertIdx {α β : Type} (x : α) (y : β) (n : Nat) (l : List α) (m : List β) (h : n ≤ l.length)
    (h' : n ≤ m.length) : (l.insertIdx n x).zip (m.insertIdx n y) = (l.zip m).insertIdx n (x, y) :=
  zipWith_insertIdx Prod.mk x y n l m h h'

theorem column_insertIdx {α : Type} {i : Nat} {row : List α} {v : α} (hv : row[i]? = some v) :
    ∀ (n : Nat) (m : List (List α)), n ≤ m.length → (∀ r ∈ m, i < r.length) →
      column (m.insertIdx n row) i = (column m i).insertIdx n v
  | 0, m, _, _ => by simp [column, hv]
  | n + 1, [], h, _ => by simp at h
  | n + 1, r :: m, h, hr => by
    have h1 := List.getElem?_eq_getElem (hr r (by simp))
    have := column_insertIdx hv n m (by simpa using h) (fun r hr' => hr r (by simp [hr']))
    unfold column at this ⊢
    rw [List.insertIdx_succ_cons, List.filterMap_cons, List.filterMap_cons, h1]
    simp only [List.insertIdx_succ_cons, this]

theorem column_length_eq {α : Type} {i : Nat} {m : List (List α)} (h : ∀ r ∈ m, i < r.length) :
    (column m i).length = m.length := by
  induction m with
  | nil => rfl
  | cons r m ih =>
    have := ih fun r' hr' => h r' (by simp [hr'])
    unfold column at this ⊢
    rw [List.filterMap_cons, List.getElem?_eq_getElem (h r (by simp))]
    simp [this]

theorem filter_insertIdx_neg {α : Type} (p : α → Bool) {x : α} (h : p x = false) :
    ∀ (n : Nat) (l : List α), (l.insertIdx n x).filter p = l.filter p
  | 0, l => by rw [List.insertIdx_zero, List.filter_cons_of_neg (by simp [h])]
  | n + 1, [] => by simp
  | n + 1, a :: l => by
    rw [List.insertIdx_succ_cons, List.filter_cons, List.filter_cons, filter_insertIdx_neg p h n l]

/-! ## Dating -/

theorem placeAll_skip {A V : Type} (agg : A → V → A) (P : A → Prop) (hP : ∀ a v, P a → P (agg a v)) {v : V}
    (hv : ∀ a, P a → agg a v = a) (i : Nat) : ∀ (l : List (Nat × V)) (n : Nat) (acc : List A), (∀ a ∈ acc, P a) →
      i < acc.length → placeAll agg (l.insertIdx n (i, v)) acc = placeAll agg l acc
  | l, 0, acc, ha, hi => by
    rw [List.insertIdx_zero, placeAll, List.getElem?_eq_getElem hi]
    simp only [hv _ (ha _ (List.getElem_mem hi)), List.set_getElem_self]
  | [], n + 1, acc, ha, hi => by simp
  | (j, w) :: l, n + 1, acc, ha, hi => by
    rw [List.insertIdx_succ_cons, placeAll, placeAll]
    cases hj : acc[j]? with
    | none => rfl
    | some old =>
      simp only []
      refine placeAll_skip agg P hP hv i l n _ (fun a h => ?_) (by simpa using hi)
      rcases List.mem_or_eq_of_mem_set h with h | rfl
      · exact ha a h
      · exact hP _ _ (ha _ (List.mem_of_getElem? hj))

theorem timeIdx_mapM {V : Type} (time : List ℝ) (l : List (ℝ × V)) :
    timeIdx time l = l.mapM (fun p => (argmin (time.map (fun t => |t - p.1|))).map (fun i => (i, p.2))) := by
  induction l with
  | nil => rfl
  | cons p l ih =>
    obtain ⟨a, v⟩ := p
    rw [timeIdx, ih, List.mapM_cons]
    cases argmin (time.map (fun t => |t - a|)) with
    | error e => rfl
    | ok i => rfl

theorem argminFrom_lt : ∀ (l : List ℝ) (best : Nat) (bv : ℝ) (i : Nat), best < i →
    argminFrom best bv i l < i + l.length
  | [], best, bv, i, h => by simpa [argminFrom] using h
  | x :: l, best, bv, i, h => by
    rw [argminFrom]
    split
    · have := argminFrom_lt l i x (i + 1) (by omega)
      simp only [List.length_cons]; omega
    · have := argminFrom_lt l best bv (i + 1) (by omega)
      simp only [List.length_cons]; omega

theorem filter_insertIdx_pos {α : Type} (p : α → Bool) {x : α} (h : p x = true) :
    ∀ (n : Nat) (l : List α), n ≤ l.length → ∃ k, k ≤ (l.filter p).length ∧
      (l.insertIdx n x).filter p = (l.filter p).insertIdx k x
  | 0, l, _ => ⟨0, by simp, by rw [List.insertIdx_zero, List.filter_cons_of_pos h, List.insertIdx_zero]⟩
  | n + 1, [], hn => by simp at hn
  | n + 1, a :: l, hn => by
    obtain ⟨k, hk, e⟩ := filter_insertIdx_pos p h n l (by simpa using hn)
    rw [List.insertIdx_succ_cons]
    cases ha : p a with
    | true =>
      refine ⟨k + 1, by rw [List.filter_cons_of_pos ha]; simpa using hk, ?_⟩
      rw [List.filter_cons_of_pos ha, List.filter_cons_of_pos ha, e, List.insertIdx_succ_cons]
    | false =>
      refine ⟨k, by rw [List.filter_cons_of_neg (by simp [ha])]; exact hk, ?_⟩
      rw [List.filter_cons_of_neg (by simp [ha]), List.filter_cons_of_neg (by simp [ha]), e]

/-- An item that leaves every value as it is may be inserted anywhere. -/
theorem ages2time_skip {A V : Type} (tol : ℝ) (time : List ℝ) (agg : A → V → A) (fill : A) (P : A → Prop)
    (h0 : P fill) (hP : ∀ a v, P a → P (agg a v)) {v : V} (hv : ∀ a, P a → agg a v = a) (t : ℝ) (n : Nat)
    (items : List (ℝ × V)) (hn : n ≤ items.length) :
    ages2time tol time (items.insertIdx n (t, v)) agg fill = ages2time tol time items agg fill := by
  unfold ages2time
  cases hm : minmaxRtol tol time with
  | error e => rfl
  | ok mm =>
    obtain ⟨lo, hi⟩ := mm
    simp only [bind, Except.bind]
    have hne : time ≠ [] := by rintro rfl; cases hm
    cases hin : (decide (t ≥ lo) && decide (t ≤ hi)) with
    | false => rw [filter_insertIdx_neg _ (by simpa using hin)]
    | true =>
      obtain ⟨k, hk, e⟩ := filter_insertIdx_pos (fun p : ℝ × V => decide (p.1 ≥ lo) && decide (p.1 ≤ hi))
        (x := (t, v)) hin n items hn
      rw [e, timeIdx_mapM, timeIdx_mapM]
      obtain ⟨i, hi1, hi2⟩ : ∃ i, argmin (time.map (fun s => |s - t|)) = .ok i ∧ i < time.length := by
        cases time with
        | nil => exact absurd rfl hne
        | cons a l =>
          refine ⟨_, rfl, ?_⟩
          have := argminFrom_lt (l.map (fun s => |s - t|)) 0 |a - t| 1 (by omega)
          simp only [List.length_map] at this
          simp only [List.length_cons]; omega
      rw [mapM_insertIdx _ (y := (i, v)) (by rw [hi1]; rfl) k _ hk]
      cases (List.filter (fun p : ℝ × V => decide (p.1 ≥ lo) && decide (p.1 ≤ hi)) items).mapM
          (fun p => (argmin (time.map (fun t => |t - p.1|))).map (fun i => (i, p.2))) with
      | error e => rfl
      | ok idx =>
        simp only [Except.map]
        exact placeAll_skip agg P hP hv i idx k _ (fun a ha => List.eq_of_mem_replicate ha ▸ h0)
          (by simpa using hi2)

/-! ## Ballistic sedimentation -/

theorem insertUnique_ext {src src' : List (Option ℝ)} {target : List ℝ}
    (h1 : ∀ x, some x ∈ src' → some x ∈ src ∨ x ∈ target) (h2 : ∀ x, some x ∈ src → some x ∈ src') :
    insertUniqueInRange src' target = insertUniqueInRange src target := by
  cases target with
  | nil => rfl
  | cons y ys =>
    unfold insertUniqueInRange
    simp only []
    congr 1
    refine sorted_ext (sortUnique_sorted _) (sortUnique_sorted _) (fun x => ?_)
    rw [mem_sortUnique, mem_sortUnique]
    simp only [List.mem_append, List.mem_filter, List.mem_filterMap, id_eq, exists_eq_right]
    constructor
    · rintro (h | ⟨h, h'⟩)
      · exact .inl h
      · rcases h1 x h with h | h
        · exact .inr ⟨h, h'⟩
        · exact .inl h
    · rintro (h | ⟨h, h'⟩)
      · exact .inl h
      · exact .inr ⟨h2 x h, h'⟩

theorem mapM_map_post {ε α β γ δ : Type} (F : β → Except ε γ) (F' : α → Except ε δ) (G : α → β) (H : δ → γ) :
    ∀ l : List α, (∀ a ∈ l, F (G a) = (F' a).map H) → (l.map G).mapM F = (l.mapM F').map (List.map H)
  | [], _ => rfl
  | a :: l, h => by
    rw [List.map_cons, List.mapM_cons, List.mapM_cons, h a (by simp),
      mapM_map_post F F' G H l fun b hb => h b (by simp [hb])]
    cases F' a with
    | error e => rfl
    | ok b => cases l.mapM F' <;> rfl

theorem getMeltFrac_skip (tbl : MeltTable ℝ) (T : ℝ) (n : Nat) (qs : List (List (ℝ × Option ℝ)))
    (hn : ∀ col ∈ qs, n ≤ col.length) (hT : T ∈ tbl.temps ∨ ∀ col ∈ qs, ∃ q ∈ col, q.1 = T) :
    getMeltFrac tbl (qs.map (fun col => col.insertIdx n (T, none))) =
      (getMeltFrac tbl qs).map (List.map (fun m => m.insertIdx n (some 0))) := by
  unfold getMeltFrac
  have hmem : ∀ q, q ∈ (qs.map (fun col => col.insertIdx n (T, none))).flatten →
      q ∈ qs.flatten ∨ (q = (T, none) ∧ ∃ col, col ∈ qs) := by
    intro q hq
    simp only [List.mem_flatten, List.mem_map] at hq
    obtain ⟨_, ⟨col, hc, rfl⟩, hq⟩ := hq
    rcases List.eq_or_mem_of_mem_insertIdx hq with rfl | hq
    · exact .inr ⟨rfl, col, hc⟩
    · exact .inl (List.mem_flatten.2 ⟨col, hc, hq⟩)
  have hmem' : ∀ q, q ∈ qs.flatten → q ∈ (qs.map (fun col => col.insertIdx n (T, none))).flatten := by
    intro q hq
    simp only [List.mem_flatten, List.mem_map] at hq ⊢
    obtain ⟨col, hc, hq⟩ := hq
    exact ⟨_, ⟨col, hc, rfl⟩, List.subset_insertIdx _ _ _ hq⟩
  rw [insertUnique_ext (src := qs.flatten.map (fun q => some q.1)) (target := tbl.temps) ?_ ?_,
    insertUnique_ext (src := qs.flatten.map (fun q => q.2)) (target := tbl.rows.map (·.1)) ?_ ?_]
  · cases insertUniqueInRange (qs.flatten.map (fun q => some q.1)) tbl.temps with
    | error e => rfl
    | ok temps =>
      cases insertUniqueInRange (qs.flatten.map (fun q => q.2)) (tbl.rows.map (·.1)) with
      | error e => rfl
      | ok mrs =>
        simp only [bind, Except.bind]
        exact mapM_map_post _ _ _ _ qs fun col hc => mapM_insertIdx (x := (T, none)) (y := some 0) _ rfl n col (hn col hc)
  · intro x hx
    obtain ⟨q, hq, e⟩ := List.mem_map.1 hx
    rcases hmem q hq with h | ⟨rfl, -⟩
    · exact .inl (List.mem_map.2 ⟨q, h, e⟩)
    · cases e
  · intro x hx
    obtain ⟨q, hq, e⟩ := List.mem_map.1 hx
    exact List.mem_map.2 ⟨q, hmem' q hq, e⟩
  · intro x hx
    obtain ⟨q, hq, e⟩ := List.mem_map.1 hx
    rcases hmem q hq with h | ⟨rfl, col, hc⟩
    · exact .inl (List.mem_map.2 ⟨q, h, e⟩)
    · injection e with e
      subst e
      rcases hT with h | h
      · exact .inr h
      · obtain ⟨q, hq, e⟩ := h col hc
        exact .inl (List.mem_map.2 ⟨q, List.mem_flatten.2 ⟨col, hc, hq⟩, by rw [e]⟩)
  · intro x hx
    obtain ⟨q, hq, e⟩ := List.mem_map.1 hx
    exact List.mem_map.2 ⟨q, hmem' q hq, e⟩

theorem bsedColumn_skip (cfg : BsedCfg ℝ) (time ages thick : List ℝ) (ratios melts : List (Option ℝ)) (t : ℝ)
    (n : Nat) (h1 : n ≤ ages.length) (h2 : n ≤ thick.length) (h3 : n ≤ ratios.length) (h4 : n ≤ melts.length) :
    bsedColumn cfg time (ages.insertIdx n t) (thick.insertIdx n 0) (ratios.insertIdx n none)
      (melts.insertIdx n (some 0)) = bsedColumn cfg time ages thick ratios melts := by
  unfold bsedColumn
  rw [List.map_insertIdx, zip_insertIdx _ _ _ _ _ h1 (by simpa using h2), zip_insertIdx _ _ _ _ _ h1 h3,
    zip_insertIdx _ _ _ _ _ h1 h4,
    ages2time_skip _ _ nansum 0 (fun _ => True) trivial (fun _ _ _ => trivial) (by intro a _; simp [nansum]) _ _ _
      (by simp; omega),
    ages2time_skip _ _ nanmax 0 (fun _ => True) trivial (fun _ _ _ => trivial) (by intro a _; simp [nanmax]) _ _ _
      (by simp; omega),
    ages2time_skip _ _ nanmax 0 (fun a => 0 ≤ a) le_rfl (by
      intro a v ha
      cases v with
      | none => exact ha
      | some v => exact le_max_of_le_left ha) (by intro a ha; simp [nanmax, ha]) _ _ _
      (by simp; omega)]

theorem bsedDepth_skip (cfg : BsedCfg ℝ) (tbl : MeltTable ℝ) (mr : Option ℝ → Option ℝ) (hmr : mr none = none)
    (time ages : List ℝ) (isbasin : List Bool) (traps : List (List (Option ℝ) × List ℝ)) (t : ℝ) (b : Bool) (n : Nat)
    (h1 : n ≤ ages.length) (h2 : isbasin.length = ages.length)
    (h3 : ∀ tr ∈ traps, tr.1.length = ages.length ∧ tr.2.length = ages.length)
    (hT : cfg.ballistic_sed = false ∨ b ∈ isbasin ∨ (ejectaTemp cfg [b]).head? ∈ tbl.temps.map some) :
    bsedDepth cfg tbl mr time (ages.insertIdx n t) (isbasin.insertIdx n b)
      (traps.map (fun tr => (tr.1.insertIdx n none, tr.2.insertIdx n 0))) =
      bsedDepth cfg tbl mr time ages isbasin traps := by
  unfold bsedDepth
  cases hb : cfg.ballistic_sed with
  | false =>
    rw [if_pos (by simp), if_pos (by simp), List.map_map]
    rfl
  | true =>
    rw [if_neg (by simp), if_neg (by simp)]
    obtain ⟨T, hTd⟩ : ∃ T, T = (if b then (if cfg.basin_ejecta_temp_warm then cfg.basin_ejecta_temp_init_warm
      else cfg.basin_ejecta_temp_init_cold) else cfg.polar_ejecta_temp_init) := ⟨_, rfl⟩
    have htemps : ejectaTemp cfg (isbasin.insertIdx n b) = (ejectaTemp cfg isbasin).insertIdx n T := by
      unfold ejectaTemp
      simp only [List.map_insertIdx, hTd]
    have hlen : (ejectaTemp cfg isbasin).length = ages.length := by
      unfold ejectaTemp
      simp [h2]
    have hq : (traps.map (fun tr => (tr.1.insertIdx n none, tr.2.insertIdx n (0 : ℝ)))).map
        (fun tr => (ejectaTemp cfg (isbasin.insertIdx n b)).zip (tr.1.map mr)) =
        (traps.map (fun tr => (ejectaTemp cfg isbasin).zip (tr.1.map mr))).map
          (fun col => col.insertIdx n (T, none)) := by
      rw [List.map_map, List.map_map]
      refine List.map_congr_left fun tr htr => ?_
      simp only [Function.comp_apply]
      rw [htemps, List.map_insertIdx, hmr, zip_insertIdx _ _ _ _ _ (by omega) (by
        rw [List.length_map, (h3 tr htr).1]; exact h1)]
    simp only []
    rw [hq, getMeltFrac_skip]
    · cases hm : getMeltFrac tbl (traps.map (fun tr => (ejectaTemp cfg isbasin).zip (tr.1.map mr))) with
      | error e => rfl
      | ok melts =>
        simp only [bind, Except.bind, Except.map]
        rw [List.zip_map, mapM_map_post _ (fun p => bsedColumn cfg time ages p.1.2 (p.1.1.map mr) p.2) _ id]
        · cases (traps.zip melts).mapM (fun p => bsedColumn cfg time ages p.1.2 (p.1.1.map mr) p.2) with
          | error e => rfl
          | ok o => simp [Except.map]
        · rintro ⟨tr, m⟩ hp
          have htr := (List.of_mem_zip hp).1
          obtain ⟨temps, mrs, -, -, hans⟩ := getMeltFrac_answer hm
          have hml : m.length = ages.length := by
            have := (List.of_mem_zip hp).2
            rw [hans] at this
            obtain ⟨col, hc, rfl⟩ := List.mem_map.1 this
            obtain ⟨tr', htr', rfl⟩ := List.mem_map.1 hc
            rw [List.length_map, List.length_zip, List.length_map, hlen, (h3 tr' htr').1]
            simp
          simp only [Prod.map]
          rw [List.map_insertIdx, hmr, bsedColumn_skip _ _ _ _ _ _ _ _ h1 (by rw [(h3 tr htr).2]; exact h1)
            (by rw [List.length_map, (h3 tr htr).1]; exact h1) (by rw [hml]; exact h1)]
          cases bsedColumn cfg time ages tr.2 (tr.1.map mr) m <;> rfl
    · intro col hc
      obtain ⟨tr, htr, rfl⟩ := List.mem_map.1 hc
      rw [List.length_zip, List.length_map, hlen, (h3 tr htr).1]
      simpa using h1
    · rcases hT with h | h | h
      · rw [hb] at h; cases h
      · right
        intro col hc
        obtain ⟨tr, htr, rfl⟩ := List.mem_map.1 hc
        obtain ⟨i, hi, hib⟩ := List.getElem_of_mem h
        have hi' : i < ages.length := by omega
        have hl : i < ((ejectaTemp cfg isbasin).zip (tr.1.map mr)).length := by
          rw [List.length_zip, List.length_map, hlen, (h3 tr htr).1]
          simpa using hi'
        refine ⟨_, List.getElem_mem hl, ?_⟩
        rw [List.getElem_zip]
        simp only [ejectaTemp, List.getElem_map, hib, hTd]
      · left
        unfold ejectaTemp at h
        simp only [List.map_cons, List.map_nil, List.head?_cons, ← hTd] at h
        simpa using h

end MoonPIES
