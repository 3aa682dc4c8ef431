import Verif.Props.MainEjecta
import Verif.Props.Run
import Verif.Props.Bsed

/-!
# Changing the list of cold traps: helper lemmas for C129
-/

namespace MoonPIES

variable {σ : Type}

/-- Spec: the same configuration with other cold traps. -/
def Spec.withTraps (c : RunCfg) (names : List String) : RunCfg := { c with coldtrap_names := names }

open Spec

theorem stochLoop_traps (g : Gen σ) (c : RunCfg) (ns : List String) (regime : String)
    (diams prob : List ℝ) : ∀ (counts : List Int) (s : σ),
    stochLoop g (withTraps c ns) regime diams prob counts s = stochLoop g c regime diams prob counts s
  | [], _ => rfl
  | n :: rest, s => by
    have e : (fun t => stochLoop g (withTraps c ns) regime diams prob rest t) =
        fun t => stochLoop g c regime diams prob rest t :=
      funext fun t => stochLoop_traps g c ns regime diams prob rest t
    unfold stochLoop
    simp only [show ∀ t, stochLoop g (withTraps c ns) regime diams prob rest t =
        stochLoop g c regime diams prob rest t from congrFun e]
    rfl

theorem impactIce_traps (g : Gen σ) (c : RunCfg) (ns : List String) (df : CraterTable) (time : List ℝ)
    (s : σ) : impactIce g (withTraps c ns) df time s = impactIce g c df time s := by
  have e : ∀ r t, iceStochastic g (withTraps c ns) time r t = iceStochastic g c time r t := by
    intro r t
    unfold iceStochastic
    simp only [stochLoop_traps]
    rfl
  have n : nonBasinIce g (withTraps c ns) time s = nonBasinIce g c time s := by
    unfold nonBasinIce
    simp only [e]
    rfl
  unfold impactIce
  rw [n]
  rfl

theorem polarIce_traps (g : Gen σ) (c : RunCfg) (ns : List String) (lum : List (ℝ × ℝ))
    (df : CraterTable) (time : List ℝ) (s : σ) :
    polarIce g (withTraps c ns) lum df time s = polarIce g c lum df time s := by
  have h1 := impactIce_traps g c ns df time s
  have h2 : ∀ t, impactIceComet g (withTraps c ns) df time t = impactIceComet g c df time t :=
    fun t => impactIce_traps g c.comet ns df time t
  unfold polarIce
  simp only [h1, h2]
  rfl

/-- The column of a matrix computed entry by entry depends on its own name only. -/
theorem mapM_column {ε α β γ : Type} (f : α → β → Except ε γ) (names : List β) (j : Nat) (name : β)
    (hj : names[j]? = some name) : ∀ (rows : List α) (m : List (List γ)),
    rows.mapM (fun r => names.mapM (f r)) = .ok m →
    List.Forall₂ (fun r x => f r name = .ok x) rows (column m j) := by
  intro rows m h
  obtain ⟨l, i⟩ := mapM_ok_inv _ _ _ h
  have hjl : j < names.length := (List.getElem?_eq_some_iff.1 hj).1
  have hrow : ∀ row ∈ m, row.length = names.length := by
    intro row hrow
    obtain ⟨k, hk⟩ := List.mem_iff_getElem?.1 hrow
    have hkl : k < rows.length := by rw [← l]; exact (List.getElem?_eq_some_iff.1 hk).1
    obtain ⟨b, hb1, hb2⟩ := i k _ (List.getElem?_eq_getElem hkl)
    rw [hk] at hb1
    injection hb1 with hb1
    subst hb1
    exact (mapM_ok_inv _ _ _ hb2).1
  obtain ⟨c1, c2⟩ := column_spec hjl m hrow
  rw [forall₂_iff_getElem?]
  refine ⟨by rw [c1, l], ?_⟩
  intro k r x hr hx
  obtain ⟨row, e1, e2⟩ := i k r hr
  obtain ⟨-, i3⟩ := mapM_ok_inv _ _ _ e2
  obtain ⟨y, e3, e4⟩ := i3 j name hj
  rw [c2 k row e1, e3] at hx
  injection hx with hx
  exact hx ▸ e4

theorem forall₂_functional {α β : Type} {R : α → β → Prop} (hR : ∀ a b b', R a b → R a b' → b = b') :
    ∀ {l : List α} {m m' : List β}, List.Forall₂ R l m → List.Forall₂ R l m' → m = m'
  | _, _, _, .nil, .nil => rfl
  | _, _, _, .cons h t, .cons h' t' => by rw [hR _ _ _ h h', forall₂_functional hR t t']

theorem colDists {cfg : EjCfg} {df : List Crater} {ns ns' : List String}
    {m m' : List (List (Option ℝ))} (h : coldtrapDists cfg df ns = .ok m)
    (h' : coldtrapDists cfg df ns' = .ok m') {j j' : Nat} {name : String} (hj : ns[j]? = some name)
    (hj' : ns'[j']? = some name) : column m' j' = column m j :=
  forall₂_functional (fun _ _ _ a b => by rw [a] at b; injection b)
    (mapM_column _ ns' j' name hj' df m' h') (mapM_column _ ns j name hj df m h)

theorem colThick {c : RunCfg} {df : CraterTable} {ns ns' : List String}
    {m m' : List (List (Option ℝ))} {t t' : List (List ℝ)}
    (h : coldtrapDists c.ej (df.map (·.rest.crater)) ns = .ok m)
    (h' : coldtrapDists c.ej (df.map (·.rest.crater)) ns' = .ok m')
    (ht : thicknessMatrix c df m = .ok t) (ht' : thicknessMatrix c df m' = .ok t')
    {j j' : Nat} {name : String} (hj : ns[j]? = some name) (hj' : ns'[j']? = some name) :
    column t' j' = column t j :=
  forall₂_functional (fun _ _ _ a b => by
      obtain ⟨x, x1, x2⟩ := a
      obtain ⟨y, y1, y2⟩ := b
      rw [x1] at y1
      injection y1 with y1
      subst y1
      rw [x2] at y2
      injection y2)
    (thickness_rows (withTraps c ns') df m' t' h' ht' j' name hj').2
    (thickness_rows (withTraps c ns) df m t h ht j name hj).2

/-- Column `j` of an array given by its columns. -/
theorem colOf_columns {α : Type} {cols : List (List α)} {n j : Nat} {col : List α}
    (hl : ∀ q ∈ cols, q.length = n) (hj : cols[j]? = some col) :
    colOf j ((List.range n).map (column cols)) = col.map (fun x => [x]) := by
  have hcl := hl col (List.mem_of_getElem? hj)
  unfold colOf
  rw [List.map_map]
  apply List.ext_getElem?
  intro t
  rw [List.getElem?_map, List.getElem?_map]
  by_cases ht : t < n
  · rw [List.getElem?_range ht, List.getElem?_eq_getElem (hcl ▸ ht)]
    simp only [Option.map_some, Function.comp]
    congr 1
    obtain ⟨c1, c2⟩ := column_spec ht cols hl
    have hk := c2 j col hj
    rw [List.getElem?_eq_getElem (l := col) (hcl.symm ▸ ht)] at hk
    obtain ⟨hjl, hk⟩ := List.getElem?_eq_some_iff.1 hk
    rw [List.drop_eq_getElem_cons hjl, hk, List.take_succ_cons, List.take_zero]
  · rw [List.getElem?_eq_none (by rw [List.length_range]; omega),
      List.getElem?_eq_none (by omega)]
    rfl

/-- What the sedimentation arrays hold for one cold trap. -/
theorem bsedArrays_col {c : RunCfg} {d : RunData} {time : List ℝ} (hne : time ≠ []) {df : CraterTable}
    {dists : List (List (Option ℝ))} {thick bd bf : List (List ℝ)}
    (h : bsedArrays c d time df dists thick = .ok (bd, bf)) {j : Nat}
    (hj : j < c.coldtrap_names.length) :
    ∃ depth frac, colOf j bd = depth.map (fun x => [x]) ∧ colOf j bf = frac.map (fun x => [x]) ∧
      (c.ballistic_sed = false → depth = time.map (fun _ => 0) ∧ frac = time.map (fun _ => 0)) ∧
      (c.ballistic_sed = true → ∃ o1 o2,
        ages2time c.bsed.rtol time ((df.map (·.age)).zip ((column thick j).map some)) nansum 0 = .ok o1 ∧
        ages2time c.bsed.rtol time ((df.map (·.age)).zip ((column dists j).map
          (mixingRatio c.mixing_ratio_petro c.mixing_ratio_a c.mixing_ratio_b))) nanmax 0 = .ok o2 ∧
        depth = List.zipWith (· * ·) o1 o2) := by
  unfold bsedArrays at h
  obtain ⟨out, ho, h⟩ := bind_ok_inv h
  injection h with h
  injection h with h1 h2
  subst h1 h2
  have htr : ((List.range c.coldtrap_names.length).map
      (fun i => (column dists i, column thick i)))[j]? = some (column dists j, column thick j) := by
    rw [List.getElem?_map, List.getElem?_range hj]; rfl
  obtain ⟨traps, htraps⟩ : ∃ t, t = (List.range c.coldtrap_names.length).map
    (fun i => (column dists i, column thick i)) := ⟨_, rfl⟩
  rw [← htraps] at ho htr
  unfold bsedDepth at ho
  have hsed : c.bsed.ballistic_sed = c.ballistic_sed := rfl
  cases hb : c.ballistic_sed with
  | false =>
    rw [if_pos (by rw [hsed, hb]; exact Bool.false_ne_true)] at ho
    injection ho with ho
    have hoj : out[j]? = some (time.map (fun _ => (0 : ℝ)), time.map (fun _ => (0 : ℝ))) := by
      rw [← ho, List.getElem?_map, htr]; rfl
    have hl : ∀ p ∈ out, p.1.length = time.length ∧ p.2.length = time.length := by
      intro p hp
      rw [← ho] at hp
      obtain ⟨_, _, rfl⟩ := List.mem_map.1 hp
      exact ⟨List.length_map _, List.length_map _⟩
    refine ⟨_, _, colOf_columns (fun q hq => ?_) ((List.getElem?_map ..).trans (congrArg _ hoj)),
      colOf_columns (fun q hq => ?_) ((List.getElem?_map ..).trans (congrArg _ hoj)),
      fun _ => ⟨rfl, rfl⟩, fun h => absurd h Bool.false_ne_true⟩
    · obtain ⟨p, hp, rfl⟩ := List.mem_map.1 hq; exact (hl p hp).1
    · obtain ⟨p, hp, rfl⟩ := List.mem_map.1 hq; exact (hl p hp).2
  | true =>
    rw [if_neg (by rw [hsed, hb]; exact fun h => h rfl)] at ho
    obtain ⟨melts, hm, ho⟩ := bind_ok_inv ho
    unfold getMeltFrac at hm
    obtain ⟨_, -, hm⟩ := bind_ok_inv hm
    obtain ⟨_, -, hm⟩ := bind_ok_inv hm
    obtain ⟨ml, -⟩ := mapM_ok_inv _ _ _ hm
    obtain ⟨ol, oi⟩ := mapM_ok_inv _ _ _ ho
    rw [List.length_map] at ml
    have hcol : ∀ (k : Nat) q, out[k]? = some q → ∃ p, (traps.zip melts)[k]? = some p ∧
        ∃ o1 o2 o3, ages2time c.bsed.rtol time ((df.map (·.age)).zip (p.1.2.map some)) nansum 0 = .ok o1 ∧
          ages2time c.bsed.rtol time ((df.map (·.age)).zip (p.1.1.map
            (mixingRatio c.mixing_ratio_petro c.mixing_ratio_a c.mixing_ratio_b))) nanmax 0 = .ok o2 ∧
          o1.length = time.length ∧ o2.length = time.length ∧ o3.length = time.length ∧
          q = (List.zipWith (· * ·) o1 o2, o3) := by
      intro k q hq
      have hk : k < (traps.zip melts).length := by
        rw [← ol]; exact (List.getElem?_eq_some_iff.1 hq).1
      obtain ⟨b, hb1, hb2⟩ := oi k _ (List.getElem?_eq_getElem hk)
      rw [hq] at hb1
      injection hb1 with hb1
      subst hb1
      refine ⟨_, List.getElem?_eq_getElem hk, ?_⟩
      obtain ⟨o1, a1, a2, -⟩ := thick_time c.bsed.rtol time hne (df.map (·.age))
        (traps.zip melts)[k].1.2
      obtain ⟨o2, b1, b2, -⟩ := C16_maximum c.bsed.rtol time hne ((df.map (·.age)).zip
        ((traps.zip melts)[k].1.1.map (mixingRatio c.mixing_ratio_petro c.mixing_ratio_a c.mixing_ratio_b)))
      obtain ⟨o3, c1, c2, -⟩ := C16_maximum c.bsed.rtol time hne ((df.map (·.age)).zip
        (traps.zip melts)[k].2)
      unfold bsedColumn at hb2
      simp only [bind, Except.bind] at hb2
      rw [a1] at hb2; simp only [] at hb2
      rw [b1] at hb2; simp only [] at hb2
      rw [c1] at hb2; simp only [] at hb2
      injection hb2 with hb2
      exact ⟨o1, o2, _, a1, b1, a2, b2, by rw [List.length_map, c2], hb2.symm⟩
    have hl : ∀ p ∈ out, p.1.length = time.length ∧ p.2.length = time.length := by
      intro p hp
      obtain ⟨k, hk⟩ := List.mem_iff_getElem?.1 hp
      obtain ⟨_, -, o1, o2, o3, -, -, l1, l2, l3, rfl⟩ := hcol k p hk
      exact ⟨by rw [List.length_zipWith, l1, l2, min_self], l3⟩
    have hjm : j < (traps.zip melts).length := by
      have := (List.getElem?_eq_some_iff.1 htr).1
      rw [List.length_zip]
      omega
    have hjo : j < out.length := by rw [ol]; exact hjm
    obtain ⟨p, hp, o1, o2, o3, e1, e2, -, -, -, hq⟩ := hcol j _ (List.getElem?_eq_getElem hjo)
    have hp1 : p.1 = (column dists j, column thick j) := by
      have := (List.getElem?_zip_eq_some.1 hp).1
      rw [htr] at this
      injection this with this
      exact this.symm
    have hoj : out[j]? = some (List.zipWith (· * ·) o1 o2, o3) := by
      rw [List.getElem?_eq_getElem hjo, hq]
    rw [hp1] at e1 e2
    refine ⟨_, _, colOf_columns (fun q hq => ?_) ((List.getElem?_map ..).trans (congrArg _ hoj)),
      colOf_columns (fun q hq => ?_) ((List.getElem?_map ..).trans (congrArg _ hoj)),
      fun h => absurd h Bool.noConfusion, fun _ => ⟨o1, o2, e1, e2, rfl⟩⟩
    · obtain ⟨p, hp, rfl⟩ := List.mem_map.1 hq; exact (hl p hp).1
    · obtain ⟨p, hp, rfl⟩ := List.mem_map.1 hq; exact (hl p hp).2

theorem column_addRows (f : ℝ → List ℝ) (x : ℝ → ℝ) (j : Nat) (hx : ∀ p, (f p)[j]? = some (x p)) :
    ∀ (ps vs : List ℝ), column (List.zipWith (fun row v => row.map (fun p => p + v)) (ps.map f) vs) j =
      List.zipWith (fun p v => x p + v) ps vs
  | [], vs => by simp [column]
  | p :: ps, [] => by simp [column]
  | p :: ps, v :: vs => by
    have ih := column_addRows f x j hx ps vs
    unfold column at ih ⊢
    rw [List.map_cons, List.zipWith_cons_cons, List.filterMap_cons, List.getElem?_map, hx p,
      List.zipWith_cons_cons, ih]
    rfl

theorem iceColsTime_col {cfg : ColsCfg ℝ} {table : PyDict ℝ} {polar volc : List ℝ}
    {rows : List (List ℝ)} (h : iceColsTime cfg table polar volc = .ok rows) {j : Nat} {name : String}
    (hj : cfg.coldtrap_names[j]? = some name) :
    ∃ pv b, volcShare cfg polar volc = .ok pv ∧
      (cfg.ballistic_hop_moores = true → table.get name = .ok b) ∧
      column rows j = List.zipWith (fun p v => (if cfg.ballistic_hop_moores then
        b / cfg.ballistic_hop_effcy * p else p) + v) pv.1 pv.2 := by
  unfold iceColsTime at h
  obtain ⟨pv, h1, h⟩ := bind_ok_inv h
  obtain ⟨rows0, h2, h⟩ := bind_ok_inv h
  injection h with h
  unfold trapRows at h2
  have hjl : j < cfg.coldtrap_names.length := (List.getElem?_eq_some_iff.1 hj).1
  cases hm : cfg.ballistic_hop_moores with
  | true =>
    rw [hm, if_pos rfl] at h2
    obtain ⟨bhops, h3, h2⟩ := bind_ok_inv h2
    injection h2 with h2
    obtain ⟨b, b1, b2⟩ := (mapM_ok_inv _ _ _ h3).2 j name hj
    refine ⟨pv, b, h1, fun _ => b2, ?_⟩
    rw [← h, ← h2]
    simp only [if_true]
    exact column_addRows _ _ j (fun p => by rw [List.getElem?_map, b1]; rfl) _ _
  | false =>
    rw [hm, if_neg Bool.false_ne_true] at h2
    injection h2 with h2
    refine ⟨pv, 0, h1, fun h => absurd h Bool.false_ne_true, ?_⟩
    rw [← h, ← h2]
    simp only [Bool.false_eq_true, if_false]
    exact column_addRows _ _ j (fun p => by
      rw [List.getElem?_replicate, if_pos hjl]) _ _

end MoonPIES
