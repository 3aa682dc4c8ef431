import Verif.Spec.RenameAll
import Verif.Lemmas.Rename

/-!
# Helper lemmas for renaming cold traps
-/

namespace MoonPIES

open Spec

variable {σ : Type}

/-- Dictionaries whose keys are renamed and whose entries are related. -/
def KeyRel {α β : Type} (N : String → String) (R : α → β → Prop) : PyDict α → PyDict β → Prop :=
  List.Forall₂ (fun p q => q.1 = N p.1 ∧ R p.2 q.2)

theorem KeyRel.set {α β : Type} {N : String → String} (hN : Function.Injective N) {R : α → β → Prop} {x : PyDict α}
    {y : PyDict β} (h : KeyRel N R x y) (k : String) {a : α} {b : β} (hab : R a b) :
    KeyRel N R (x.set k a) (y.set (N k) b) := by
  induction h with
  | nil => exact .cons ⟨rfl, hab⟩ .nil
  | @cons p q x y hpq hxy ih =>
    obtain ⟨k1, v⟩ := p
    obtain ⟨k2, w⟩ := q
    obtain ⟨hk, hv⟩ := hpq
    simp only at hk hv
    subst hk
    unfold PyDict.set
    by_cases e : k1 = k
    · simp only [if_pos e, if_pos (congrArg N e)]
      exact .cons ⟨rfl, hab⟩ hxy
    · simp only [if_neg e, if_neg (fun e' => e (hN e'))]
      exact .cons ⟨rfl, hv⟩ ih

theorem KeyRel.get {α β : Type} {N : String → String} (hN : Function.Injective N) {R : α → β → Prop} {x : PyDict α}
    {y : PyDict β} (h : KeyRel N R x y) (k : String) : ExRel R (x.get k) (y.get (N k)) := by
  induction h with
  | nil => exact rfl
  | @cons p q x y hpq _ ih =>
    obtain ⟨k1, v⟩ := p
    obtain ⟨k2, w⟩ := q
    obtain ⟨hk, hv⟩ := hpq
    simp only at hk hv
    subst hk
    unfold PyDict.get
    by_cases e : k1 = k
    · simp only [if_pos e, if_pos (congrArg N e)]
      exact hv
    · simp only [if_neg e, if_neg (fun e' => e (hN e'))]
      exact ih

theorem keyRel_renameKeys {α : Type} {N : String → String} {x y : PyDict α} :
    KeyRel N Eq x y ↔ y = renameKeys N x := by
  unfold renameKeys
  constructor
  · intro h
    induction h with
    | nil => rfl
    | @cons p q x y hpq _ ih =>
      rw [List.map_cons, ← ih]
      congr 1
      exact Prod.ext hpq.1 hpq.2.symm
  · rintro rfl
    unfold KeyRel
    rw [List.forall₂_map_right_iff, List.forall₂_same]
    exact fun _ _ => ⟨rfl, rfl⟩

theorem buildCols_keys {N : String → String} (hN : Function.Injective N) {T : String → String → Prop}
    (ice : List (List ℝ)) {ej ej' : List (List ℝ × List String)}
    (h : List.Forall₂ (fun p q => p.1 = q.1 ∧ List.Forall₂ T p.2 q.2) ej ej') : ∀ (names : List String) (i : Nat)
    {acc acc' : PyDict (StratCol ℝ)}, KeyRel N (SameCol T) acc acc' →
    ExRel (KeyRel N (SameCol T)) (buildCols ice ej i names acc) (buildCols ice ej' i (names.map N) acc')
  | [], _, _, _, ha => ha
  | n :: names, i, acc, acc', ha => by
    rw [List.map_cons]
    unfold buildCols
    refine (pyGet_rel h i).bind fun e e' he => ?_
    exact buildCols_keys hN ice h names (i + 1) (ha.set hN n ⟨rfl, he.1, he.2⟩)

theorem updateTraps_keys {N : String → String} (hN : Function.Injective N) {T : String → String → Prop} (shield : ℝ)
    (costello : Bool) (bd bf : List (List ℝ)) (t : Nat) (ov : ℝ) : ∀ (names : List String) (i : Nat)
    {x y : PyDict (StratCol ℝ)}, KeyRel N (SameCol T) x y →
    ExRel (KeyRel N (SameCol T)) (updateTraps id shield costello bd bf t ov i names x)
      (updateTraps id shield costello bd bf t ov i (names.map N) y)
  | [], _, _, _, h => h
  | n :: names, i, x, y, h => by
    rw [List.map_cons]
    unfold updateTraps
    refine (h.get hN n).bind fun a b hab => ?_
    refine (ExRel.of_eq rfl).bind fun d d' hd => ?_
    subst hd
    refine (ExRel.of_eq rfl).bind fun f f' hf => ?_
    subst hf
    refine (ExRel.of_eq (by rw [hab.1, hab.2.1])).bind fun u v huv => ?_
    subst huv
    exact updateTraps_keys hN shield costello bd bf t ov names (i + 1) (h.set hN n ⟨rfl, hab.2.1, hab.2.2⟩)

theorem updateStratColsFrom_keys {N : String → String} (hN : Function.Injective N) {T : String → String → Prop}
    (shield : ℝ) (costello : Bool) (names : List String) (bd bf : List (List ℝ)) : ∀ (ovs : List ℝ) (t : Nat)
    {x y : PyDict (StratCol ℝ)}, KeyRel N (SameCol T) x y →
    ExRel (KeyRel N (SameCol T)) (updateStratColsFrom id shield costello names bd bf t ovs x)
      (updateStratColsFrom id shield costello (names.map N) bd bf t ovs y)
  | [], _, _, _, h => h
  | ov :: ovs, t, x, y, h => by
    unfold updateStratColsFrom
    refine (updateTraps_keys hN shield costello bd bf t ov names 0 h).bind fun a b hab => ?_
    exact updateStratColsFrom_keys hN shield costello names bd bf ovs (t + 1) hab

theorem coldtrapDist_all {N : String → String} (hN : Function.Injective N) (cfg : EjCfg) (df : List Crater)
    (row : Crater) (trap : String) :
    coldtrapDist cfg (df.map (renameCrater N)) (renameCrater N row) (N trap) = coldtrapDist cfg df row trap := by
  have hf : (df.map (renameCrater N)).filter (fun c => decide (c.cname = N trap)) =
      (df.filter (fun c => decide (c.cname = trap))).map (renameCrater N) := by
    rw [List.filter_map]
    congr 1
    refine List.filter_congr fun c _ => ?_
    exact decide_eq_decide.2 hN.eq_iff
  unfold coldtrapDist
  rw [hf]
  have hn : (renameCrater N row).cname = N trap ↔ row.cname = trap := hN.eq_iff
  by_cases e : row.cname = trap
  · simp only [if_pos e, if_pos (hn.2 e)]
  · simp only [if_neg e, if_neg (fun e' => e (hn.1 e'))]
    cases hl : df.filter (fun c => decide (c.cname = trap)) with
    | nil => rfl
    | cons t l =>
      cases l with
      | cons u l => rfl
      | nil => rfl

theorem coldtrapDists_all {N : String → String} (hN : Function.Injective N) (cfg : EjCfg) (df : List Crater)
    (names : List String) :
    coldtrapDists cfg (df.map (renameCrater N)) (names.map N) = coldtrapDists cfg df names := by
  unfold coldtrapDists
  rw [List.mapM_map]
  refine mapM_congr_mem fun row _ => ?_
  simp only [Function.comp_def]
  rw [List.mapM_map]
  exact mapM_congr_mem fun t _ => coldtrapDist_all hN cfg df row t

theorem hopColdtraps_all {N : String → String} (hN : Function.Injective N) (x : PyDict ℝ) (names : List String) :
    hopColdtraps (renameKeys N x) (names.map N) = hopColdtraps x names := by
  unfold hopColdtraps
  rw [List.mapM_map]
  refine mapM_congr_mem fun n _ => ?_
  have h := KeyRel.get hN (keyRel_renameKeys.2 (rfl : renameKeys N x = renameKeys N x)) n
  simp only [Function.comp_def]
  cases h1 : x.get n <;> cases h2 : (renameKeys N x).get (N n) <;> rw [h1, h2] at h
  · rw [show _ = _ from h]
  · exact h.elim
  · exact h.elim
  · rw [show _ = _ from h]

theorem iceCols_all {N : String → String} (hN : Function.Injective N) (g : Gen σ) (c : RunCfg) (d : RunData)
    (sort : CraterTable → CraterTable) (df : CraterTable) (time : List ℝ) (s : σ) :
    iceCols g (renameTraps N c) (renameAll N sort d) (df.map (renameRow N)) time s = iceCols g c d df time s := by
  rw [← iceCols_rename N g c d df time s]
  unfold iceCols
  have h1 := polarIce_traps g c (c.coldtrap_names.map N) (readLuminosity d.lum) (df.map (renameRow N)) time s
  have h1' : polarIce g (renameTraps N c) (readLuminosity (renameAll N sort d).lum) (df.map (renameRow N)) time s =
      polarIce g c (readLuminosity d.lum) (df.map (renameRow N)) time s := h1
  rw [h1']
  have h2 : ∀ polar volc, iceColsTime (renameTraps N c).cols (renameAll N sort d).hop polar volc =
      iceColsTime c.cols d.hop polar volc := by
    intro polar volc
    unfold iceColsTime
    have hv : volcShare (renameTraps N c).cols polar volc = volcShare c.cols polar volc := rfl
    rw [hv]
    refine congrArg (volcShare c.cols polar volc >>= ·) (funext fun pv => ?_)
    have ht : trapRows (renameTraps N c).cols (renameAll N sort d).hop pv.1 = trapRows c.cols d.hop pv.1 := by
      unfold trapRows
      have e1 : (renameTraps N c).cols.coldtrap_names = c.cols.coldtrap_names.map N := rfl
      have e2 : (renameAll N sort d).hop = renameKeys N d.hop := rfl
      rw [e1, e2, hopColdtraps_all hN, List.length_map]
      rfl
    rw [ht]
  simp only [h2]
  rfl

theorem trapAges_all {N : String → String} (hN : Function.Injective N) (df : CraterTable) (names : List String) :
    ExRel (fun a b => b = a.map (fun p : String × ℝ => (N p.1, p.2))) (trapAges df names)
      (trapAges (df.map (renameRow N)) (names.map N)) := by
  unfold trapAges
  rw [List.mapM_map]
  have := ExRel.mapM (R := fun (a b : List (String × ℝ)) => b = a.map (fun p => (N p.1, p.2))) (f := rowsNamed df)
    (g := fun n => rowsNamed (df.map (renameRow N)) (N n)) names (by
    intro t _
    unfold rowsNamed
    have : (df.map (renameRow N)).filter (fun r => decide (r.rest.crater.cname = N t)) =
        (df.filter (fun r => decide (r.rest.crater.cname = t))).map (renameRow N) := by
      rw [List.filter_map]
      congr 1
      refine List.filter_congr fun r _ => ?_
      exact decide_eq_decide.2 hN.eq_iff
    rw [this]
    cases df.filter (fun r => decide (r.rest.crater.cname = t)) with
    | nil => exact rfl
    | cons a l =>
      change _ = _
      simp only [List.map_cons, List.map_map]
      rfl)
  refine this.bind fun a b hab => ?_
  change _ = _
  have h2 : b = a.map (List.map (fun p => (N p.1, p.2))) := by
    induction hab with
    | nil => rfl
    | cons h _ ih => rw [List.map_cons, ← ih, h]
  rw [h2, List.map_flatten]

/-- Results with renamed cold traps, the same columns and tables related by `Q`. -/
def KeyOut (N : String → String) (Q : List (StratRow ℝ) → List (StratRow ℝ) → Prop) (a b : CsvOut) : Prop :=
  KeyRel N Eq a.ice b.ice ∧ KeyRel N Eq a.ej b.ej ∧ KeyRel N Q a.strat b.strat

theorem formatLoop_keyRel {N : String → String} (hN : Function.Injective N) {T : String → String → Prop}
    {Q : List (StratRow ℝ) → List (StratRow ℝ) → Prop} (c c' : RunCfg) (hc : c'.thickness_min = c.thickness_min)
    (hs : c'.strat_after_age = c.strat_after_age) (time : List ℝ)
    (hQ : ∀ (age : ℝ) (a b : StratCol ℝ), SameCol T a b →
      ExRel Q (makeStratCol c.thickness_min RunCfg.rtol c.strat_after_age age (toSteps time a))
        (makeStratCol c.thickness_min RunCfg.rtol c.strat_after_age age (toSteps time b)))
    {x y : PyDict (StratCol ℝ)} (h : KeyRel N (SameCol T) x y) : ∀ (ages : List (String × ℝ))
    {p q : CsvOut × List (List String)}, KeyOut N Q p.1 q.1 → p.2.length = q.2.length →
    ExRel (fun p q => KeyOut N Q p.1 q.1 ∧ p.2.length = q.2.length) (formatLoop c time x ages p)
      (formatLoop c' time y (ages.map (fun p => (N p.1, p.2))) q)
  | [], _, _, h1, h2 => ⟨h1, h2⟩
  | (n, age) :: ages, (o, s), (o', s'), h1, h2 => by
    rw [List.map_cons]
    unfold formatLoop
    refine (h.get hN n).bind fun a b hab => ?_
    rw [hc, hs]
    refine (hQ age a b hab).bind fun t t' ht => ?_
    refine formatLoop_keyRel hN c c' hc hs time hQ h ages ?_ ?_
    · exact ⟨h1.1.set hN n hab.1, h1.2.1.set hN n hab.2.1, h1.2.2.set hN n ht⟩
    · simpa using h2

theorem runFrom_all {N : String → String} (hN : Function.Injective N) {ns : List String}
    {Q : List (StratRow ℝ) → List (StratRow ℝ) → Prop} (g : Gen σ) (c : RunCfg) (d : RunData)
    (sort : CraterTable → CraterTable) (time : List ℝ) (df : CraterTable)
    (hns : ∀ r ∈ df, r.rest.crater.cname ∈ ns) (s : σ)
    (hQ : ∀ (age : ℝ) (a b : StratCol ℝ), SameCol (SameSources N ns) a b →
      ExRel Q (makeStratCol c.thickness_min RunCfg.rtol c.strat_after_age age (toSteps time a))
        (makeStratCol c.thickness_min RunCfg.rtol c.strat_after_age age (toSteps time b))) :
    ExRel (KeyOut N Q) (runFrom g c d time df s)
      (runFrom g (renameTraps N c) (renameAll N sort d) time (df.map (renameRow N)) s) := by
  have hlen : (renameTraps N c).coldtrap_names.length = c.coldtrap_names.length := List.length_map ..
  unfold runFrom
  refine (ExRel.of_eq ?_).bind fun dists dists' hd => ?_
  · rw [show (df.map (renameRow N)).map (·.rest.crater) = (df.map (·.rest.crater)).map (renameCrater N) by
      rw [List.map_map, List.map_map]; rfl]
    exact congrArg liftPy (coldtrapDists_all hN c.ej _ c.coldtrap_names).symm
  subst hd
  refine (ExRel.of_eq (thicknessMatrix_rename N c df dists).symm).bind fun thick thick' ht => ?_
  subst ht
  have hi : ExRel (fun p q => KeyRel N (SameCol (SameSources N ns)) p.1 q.1 ∧ p.2 = q.2)
      (initStratCols g c d time df thick s)
      (initStratCols g (renameTraps N c) (renameAll N sort d) time (df.map (renameRow N)) thick s) := by
    unfold initStratCols
    rw [hlen]
    refine (ExRel.mapM (R := fun p q => p.1 = q.1 ∧ List.Forall₂ (SameSources N ns) p.2 q.2) _ ?_).bind
      fun ej ej' hej => ?_
    · intro i _
      rw [ejRows_rename]
      refine ejectaThicknessTime_rename N ns _ _ _ _ ?_
      intro r hr
      unfold ejRows at hr
      rw [List.mem_iff_getElem] at hr
      obtain ⟨k, hk, rfl⟩ := hr
      rw [List.getElem_zipWith]
      exact hns _ (List.getElem_mem _)
    rw [iceCols_all hN g c d sort df time s]
    refine (ExRel.of_eq rfl).bind fun p q hpq => ?_
    subst hpq
    refine (buildCols_keys hN p.1 hej c.coldtrap_names 0 (acc := []) (acc' := []) .nil).bind fun x y hxy => ?_
    exact ⟨hxy, rfl⟩
  refine hi.liftPy.bind fun p q hpq => ?_
  have hb : bsedArrays (renameTraps N c) (renameAll N sort d) time (df.map (renameRow N)) dists thick =
      bsedArrays c d time df dists thick := by
    unfold bsedArrays
    rw [hlen]
    simp only [List.map_map]
    rfl
  rw [hb]
  refine (ExRel.of_eq rfl).bind fun u v huv => ?_
  subst huv
  refine (updateStratColsFrom_keys hN ejShield c.impact_gardening_costello c.coldtrap_names u.1 u.2
    (overturnDepth c.overturn time) 0 hpq.1).liftPy.bind fun x y hxy => ?_
  refine ExRel.liftPy ?_
  unfold formatCsv
  refine (trapAges_all hN df c.coldtrap_names).bind fun a b hab => ?_
  subst hab
  refine (formatLoop_keyRel hN c (renameTraps N c) rfl rfl time hQ hxy a (p := (⟨[], [], [], []⟩, []))
    (q := (⟨[], [], [], []⟩, [])) ⟨.nil, .nil, .nil⟩ rfl).bind fun p q hpq => ?_
  obtain ⟨o, l⟩ := p
  obtain ⟨o', l'⟩ := q
  obtain ⟨h1, h2⟩ := hpq
  simp only at h1 h2 ⊢
  by_cases hl : l = []
  · have hl' : l' = [] := by
      rw [← List.length_eq_zero_iff] at hl ⊢
      omega
    rw [if_pos hl, if_pos hl']
    exact rfl
  · have hl' : ¬ l' = [] := by
      rw [← List.length_eq_zero_iff] at hl ⊢
      omega
    rw [if_neg hl, if_neg hl']
    exact h1

end MoonPIES
