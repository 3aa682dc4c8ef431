import Verif.Lemmas.TrapOrder
import Verif.Props.Frame

/-!
# Craters in another order: helper lemmas for C133
-/

namespace MoonPIES

open Spec

variable {σ : Type}

theorem forall₂_map {α β : Type} {R : α → β → Prop} {F : α → β} (hR : ∀ a b, R a b → b = F a) :
    ∀ {l : List α} {m : List β}, List.Forall₂ R l m → m = l.map F
  | _, _, .nil => rfl
  | _, _, .cons h t => by rw [hR _ _ h, forall₂_map hR t, List.map_cons]

/-- The crater table before sorting. -/
theorem craterBasinList_sort (g : Gen σ) (c : RunCfg) (d : RunData) (s t : σ) (df : CraterTable)
    (h : craterBasinList g c d s = .ok (df, t)) (sort' : CraterTable → CraterTable) :
    ∃ mid, df = d.sortAges mid ∧
      craterBasinList g c { d with sortAges := sort' } s = .ok (sort' mid, t) := by
  unfold craterBasinList at h ⊢
  simp only [] at h ⊢
  obtain ⟨df', h1, h⟩ := bind_ok_inv h
  injection h with h
  injection h with h2 h3
  unfold randomizeAges at h1 ⊢
  cases hm : newAges c.timestep _ 0 _ with
  | error e => rw [hm] at h1; cases h1
  | ok mid =>
    rw [hm] at h1
    injection h1 with h1
    exact ⟨mid, by rw [← h2, ← h1], by rw [← h3]; rfl⟩

/-- The distance of a crater, missing if there is none. -/
noncomputable def distOf (cfg : EjCfg) (df : List Crater) (name : String) (cr : Crater) : Option ℝ :=
  match coldtrapDist cfg df cr name with
  | .ok x => x
  | .error _ => none

theorem distOf_perm (cfg : EjCfg) {df df' : List Crater} (hp : df'.Perm df) (name : String) :
    distOf cfg df' name = distOf cfg df name := by
  funext cr
  unfold distOf
  rw [coldtrapDist_perm cfg hp]

theorem leaves_perm (cfg : EjCfg) {df df' : List Crater} (hp : df'.Perm df) (name : String) :
    leaves cfg df' name = leaves cfg df name := by
  funext cr
  unfold leaves
  rw [coldtrapDist_perm cfg hp]

theorem dists_column {cfg : EjCfg} {df : List Crater} {ns : List String} {m : List (List (Option ℝ))}
    (h : coldtrapDists cfg df ns = .ok m) {j : Nat} {name : String} (hj : ns[j]? = some name) :
    column m j = df.map (distOf cfg df name) :=
  forall₂_map (fun a b hab => by unfold distOf; rw [hab]) (mapM_column _ ns j name hj df m h)

theorem thick_column {c : RunCfg} {df : CraterTable} {m : List (List (Option ℝ))} {t : List (List ℝ)}
    (h : coldtrapDists c.ej (df.map (·.rest.crater)) c.coldtrap_names = .ok m)
    (ht : thicknessMatrix c df m = .ok t) {j : Nat} {name : String}
    (hj : c.coldtrap_names[j]? = some name) :
    column t j = df.map (fun r => leaves c.ej (df.map (·.rest.crater)) name r.rest.crater) :=
  forall₂_map (fun _ _ hab => leaves_eq hab) (thickness_rows c df m t h ht j name hj).2

theorem zip_map_same {α β γ : Type} (l : List α) (f : α → β) (g : α → γ) :
    (l.map f).zip (l.map g) = l.map fun a => (f a, g a) := by
  rw [List.zip_map', ]

/-- The answer of the melt table to one question. -/
noncomputable def meltAnswer (tbl : MeltTable ℝ) (temps mrs : List ℝ) (q : ℝ × Option ℝ) : Option ℝ :=
  match (match q.2 with
    | none => .ok (some 0)
    | some m => meltLoc (meltInterp tbl mrs temps) mrs temps m q.1 : Except PyErr (Option ℝ)) with
  | .ok x => x
  | .error _ => none

theorem getMeltFrac_answer {tbl : MeltTable ℝ} {qs : List (List (ℝ × Option ℝ))}
    {melts : List (List (Option ℝ))} (h : getMeltFrac tbl qs = .ok melts) :
    ∃ temps mrs, insertUniqueInRange (qs.flatten.map (fun q => some q.1)) tbl.temps = .ok temps ∧
      insertUniqueInRange (qs.flatten.map (fun q => q.2)) (tbl.rows.map (·.1)) = .ok mrs ∧
      melts = qs.map (List.map (meltAnswer tbl temps mrs)) := by
  unfold getMeltFrac at h
  obtain ⟨temps, h1, h⟩ := bind_ok_inv h
  obtain ⟨mrs, h2, h⟩ := bind_ok_inv h
  refine ⟨temps, mrs, h1, h2, ?_⟩
  obtain ⟨l, i⟩ := mapM_ok_inv _ _ _ h
  apply List.ext_getElem?
  intro j
  rw [List.getElem?_map]
  by_cases hj : j < qs.length
  · obtain ⟨m, m1, m2⟩ := i j _ (List.getElem?_eq_getElem hj)
    rw [m1, List.getElem?_eq_getElem hj, Option.map_some]
    congr 1
    obtain ⟨l', i'⟩ := mapM_ok_inv _ _ _ m2
    apply List.ext_getElem?
    intro k
    rw [List.getElem?_map]
    by_cases hk : k < (qs[j]).length
    · obtain ⟨x, x1, x2⟩ := i' k _ (List.getElem?_eq_getElem hk)
      rw [x1, List.getElem?_eq_getElem hk, Option.map_some]
      congr 1
      unfold meltAnswer
      generalize (qs[j])[k] = q at x2
      obtain ⟨a, b⟩ := q
      cases b with
      | none => simp only [Except.ok.injEq] at x2; exact x2.symm
      | some b => simp only [] at x2 ⊢; rw [x2]
    · rw [List.getElem?_eq_none (by omega), List.getElem?_eq_none (by omega)]
      rfl
  · rw [List.getElem?_eq_none (by omega), List.getElem?_eq_none (by omega)]
    rfl

/-- The questions of one cold trap, row by row. -/
theorem trapQueries_map {c : RunCfg} {df : CraterTable} {dists : List (List (Option ℝ))} {i : Nat}
    {name : String} (h : coldtrapDists c.ej (df.map (·.rest.crater)) c.coldtrap_names = .ok dists)
    (hi : c.coldtrap_names[i]? = some name) :
    trapQueries c df dists i = df.map fun r =>
      (if r.rest.crater.isbasin then (if c.bsed.basin_ejecta_temp_warm then c.bsed.basin_ejecta_temp_init_warm
          else c.bsed.basin_ejecta_temp_init_cold) else c.bsed.polar_ejecta_temp_init,
        mixingRatio c.mixing_ratio_petro c.mixing_ratio_a c.mixing_ratio_b
          (distOf c.ej (df.map (·.rest.crater)) name r.rest.crater)) := by
  unfold trapQueries ejectaTemp
  rw [dists_column h hi]
  simp only [List.map_map]
  rw [zip_map_same]
  rfl

/-- The state and, without basins, the ice of impacts do not depend on the order of the craters. -/
theorem impactIce_perm (g : Gen σ) (c : RunCfg) {df df' : CraterTable} (hp : df'.Perm df)
    (hb : c.impact_ice_basins = false ∨ icyRows c df' = icyRows c df) (time : List ℝ) (s s1 s2 : σ)
    (ice ice' : List ℝ) (h : impactIce g c df time s = .ok (ice, s1))
    (h' : impactIce g c df' time s = .ok (ice', s2)) : ice' = ice ∧ s2 = s1 := by
  have hl : (icyRows c df').length = (icyRows c df).length := (hp.filter _).length_eq
  unfold impactIce at h h'
  obtain ⟨⟨a, t⟩, h1, h⟩ := bind_ok_inv h
  obtain ⟨⟨a', t'⟩, h1', h'⟩ := bind_ok_inv h'
  rw [h1] at h1'
  injection h1' with h1'
  injection h1' with e1 e2
  subst e1 e2
  obtain ⟨⟨m, u⟩, h2, h⟩ := bind_ok_inv h
  obtain ⟨⟨m', u'⟩, h2', h'⟩ := bind_ok_inv h'
  obtain ⟨b, h3, h⟩ := bind_ok_inv h
  obtain ⟨b', h3', h'⟩ := bind_ok_inv h'
  injection h with h
  injection h with h4 h5
  injection h' with h'
  injection h' with h4' h5'
  have hu : u' = u := by
    unfold iceBasins at h2 h2'
    simp only [] at h2 h2'
    obtain ⟨⟨v, w⟩, k1, h2⟩ := bind_ok_inv h2
    obtain ⟨⟨v', w'⟩, k1', h2'⟩ := bind_ok_inv h2'
    rw [hl, k1] at k1'
    injection k1' with k1'
    injection k1' with k1' k2'
    obtain ⟨m1, -, h2⟩ := bind_ok_inv h2
    obtain ⟨m1', -, h2'⟩ := bind_ok_inv h2'
    obtain ⟨o1, -, h2⟩ := bind_ok_inv h2
    obtain ⟨o1', -, h2'⟩ := bind_ok_inv h2'
    injection h2 with h2
    injection h2 with _ h2
    injection h2' with h2'
    injection h2' with _ h2'
    rw [← h2, ← h2', k2']
  refine ⟨?_, by rw [← h5, ← h5', hu]⟩
  rcases hb with hb | hb
  · rw [hb] at h4 h4'
    rw [← h4, ← h4']
    rfl
  · have hm : m' = m := by
      unfold iceBasins at h2 h2'
      rw [hb, h2] at h2'
      injection h2' with h2'
      injection h2' with h2' _
      exact h2'.symm
    subst hm
    rw [h3] at h3'
    injection h3' with h3'
    rw [← h4, ← h4', h3']

theorem polarIce_perm (g : Gen σ) (c : RunCfg) {df df' : CraterTable} (hp : df'.Perm df)
    (hb : c.impact_ice_basins = false ∨ df'.filter (fun r => r.rest.crater.isbasin) =
      df.filter (fun r => r.rest.crater.isbasin)) (lum : List (ℝ × ℝ)) (time : List ℝ) (s s1 s2 : σ)
    (ice ice' : List ℝ) (h : polarIce g c lum df time s = .ok (ice, s1))
    (h' : polarIce g c lum df' time s = .ok (ice', s2)) : ice' = ice ∧ s2 = s1 := by
  have hi : ∀ c : RunCfg, df'.filter (fun r => r.rest.crater.isbasin) =
      df.filter (fun r => r.rest.crater.isbasin) → icyRows c df' = icyRows c df := by
    intro c h
    have e : ∀ l : CraterTable, icyRows c l = (l.filter (fun r => r.rest.crater.isbasin)).filter
        (fun r => decide (r.rest.icy = if c.is_comet then "comet" else "hyd_ctype")) := by
      intro l
      unfold icyRows
      simp only []
      rw [List.filter_filter]
      congr 1
      funext r
      rw [Bool.and_comm]
    rw [e, e, h]
  unfold polarIce at h h'
  obtain ⟨⟨a, t⟩, h1, h⟩ := bind_ok_inv h
  obtain ⟨⟨a', t'⟩, h1', h'⟩ := bind_ok_inv h'
  obtain ⟨e1, e2⟩ := impactIce_perm g c hp (hb.imp_right (hi c)) _ _ _ _ _ _ h1 h1'
  subst e1 e2
  obtain ⟨⟨b, u⟩, h2, h⟩ := bind_ok_inv h
  obtain ⟨⟨b', u'⟩, h2', h'⟩ := bind_ok_inv h'
  obtain ⟨e1, e2⟩ := impactIce_perm g c.comet hp
    (hb.imp (fun h => by rw [← h]; rfl) (hi c.comet)) _ _ _ _ _ _ h2 h2'
  subst e1 e2
  simp only [] at h h'
  rw [h] at h'
  injection h' with h'
  injection h' with h1 h2
  exact ⟨h1.symm, h2.symm⟩

theorem iceCols_perm (g : Gen σ) (c : RunCfg) (d d' : RunData) (hd : d' = { d with sortAges := d'.sortAges })
    {df df' : CraterTable} (hp : df'.Perm df)
    (hb : c.impact_ice_basins = false ∨ df'.filter (fun r => r.rest.crater.isbasin) =
      df.filter (fun r => r.rest.crater.isbasin)) (time : List ℝ) (s s1 s2 : σ)
    (ice ice' : List (List ℝ)) (h : iceCols g c d df time s = .ok (ice, s1))
    (h' : iceCols g c d' df' time s = .ok (ice', s2)) : ice' = ice := by
  rw [hd] at h'
  unfold iceCols at h h'
  obtain ⟨⟨a, t⟩, h1, h⟩ := bind_ok_inv h
  obtain ⟨⟨a', t'⟩, h1', h'⟩ := bind_ok_inv h'
  obtain ⟨e1, e2⟩ := polarIce_perm g c hp hb _ _ _ _ _ _ _ h1 h1'
  subst e1 e2
  simp only [] at h h'
  obtain ⟨v, h2, h⟩ := bind_ok_inv h
  obtain ⟨v', h2', h'⟩ := bind_ok_inv h'
  rw [h2] at h2'
  injection h2' with h2'
  subst h2'
  obtain ⟨r, h3, h⟩ := bind_ok_inv h
  obtain ⟨r', h3', h'⟩ := bind_ok_inv h'
  rw [h3] at h3'
  injection h3' with h3'
  injection h with h
  injection h with h _
  injection h' with h'
  injection h' with h' _
  rw [← h, ← h', h3']

/-- The main loop does not look at the names of the sources. -/
theorem update_src {fl : ℝ → ℝ} {shield : ℝ} {costello : Bool} {name : String} {bsD bsF : List (List ℝ)} :
    ∀ (ovs : List ℝ) (t : Nat) (col col' : StratCol ℝ) (o o' : PyDict (StratCol ℝ)),
    col'.ice = col.ice → col'.ej = col.ej →
    updateStratColsFrom fl shield costello [name] bsD bsF t ovs [(name, col)] = .ok o →
    updateStratColsFrom fl shield costello [name] bsD bsF t ovs [(name, col')] = .ok o' →
    ∃ q q', o = [(name, q)] ∧ o' = [(name, q')] ∧ q'.ice = q.ice ∧ q'.ej = q.ej
  | [], t, col, col', o, o', h1, h2, h, h' => by
    cases h; cases h'
    exact ⟨col, col', rfl, rfl, h1, h2⟩
  | ov :: ovs, t, col, col', o, o', h1, h2, h, h' => by
    obtain ⟨mid, k1, k2⟩ := updateFrom_cons h
    obtain ⟨mid', k1', k2'⟩ := updateFrom_cons h'
    obtain ⟨c, dd, f, ice, a1, a2, a3, a4, a5⟩ := updateTraps_cons k1
    obtain ⟨c', dd', f', ice', b1, b2, b3, b4, b5⟩ := updateTraps_cons k1'
    have hc : c = col := by
      have : PyDict.get [(name, col)] name = .ok col := by simp [PyDict.get]
      rw [this] at a1; injection a1 with a1; exact a1.symm
    have hc' : c' = col' := by
      have : PyDict.get [(name, col')] name = .ok col' := by simp [PyDict.get]
      rw [this] at b1; injection b1 with b1; exact b1.symm
    subst hc hc'
    rw [a2] at b2; injection b2 with b2; subst b2
    rw [a3] at b3; injection b3 with b3; subst b3
    rw [h1, h2, a4] at b4; injection b4 with b4; subst b4
    have e1 : PyDict.set [(name, c)] name { c with ice := ice } = [(name, { c with ice := ice })] := by
      simp [PyDict.set]
    have e2 : PyDict.set [(name, c')] name { c' with ice := ice } = [(name, { c' with ice := ice })] := by
      simp [PyDict.set]
    rw [e1] at a5; rw [e2] at b5
    cases a5; cases b5
    exact update_src ovs (t + 1) { c with ice := ice } { c' with ice := ice } o o' rfl h2 k2 k2'

end MoonPIES
