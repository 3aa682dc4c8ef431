import Verif.Spec.Rename
import Verif.Model.MainFrom
import Verif.Props.Labels
import Verif.Lemmas.AloofRun

/-!
# Helper lemmas for renaming craters
-/

namespace MoonPIES

open Spec

variable {σ : Type}

/-- Two computations fail alike, or both succeed with related results. -/
def ExRel {ε α β : Type} (R : α → β → Prop) : Except ε α → Except ε β → Prop
  | .ok a, .ok b => R a b
  | .error e, .error f => e = f
  | _, _ => False

theorem ExRel.bind {ε α β γ δ : Type} {R : α → β → Prop} {S : γ → δ → Prop} {x : Except ε α} {y : Except ε β}
    {f : α → Except ε γ} {g : β → Except ε δ} (h : ExRel R x y) (hf : ∀ a b, R a b → ExRel S (f a) (g b)) :
    ExRel S (x >>= f) (y >>= g) := by
  cases x <;> cases y
  · exact h
  · exact h.elim
  · exact h.elim
  · exact hf _ _ h

theorem ExRel.of_eq {ε α : Type} {x y : Except ε α} (h : x = y) : ExRel Eq x y := by
  subst h
  cases x <;> exact rfl

theorem ExRel.mono {ε α β : Type} {R S : α → β → Prop} {x : Except ε α} {y : Except ε β} (h : ExRel R x y)
    (hs : ∀ a b, R a b → S a b) : ExRel S x y := by
  cases x <;> cases y
  · exact h
  · exact h.elim
  · exact h.elim
  · exact hs _ _ h

theorem ExRel.liftPy {α β : Type} {R : α → β → Prop} {x : Except PyErr α} {y : Except PyErr β} (h : ExRel R x y) :
    ExRel R (liftPy x) (liftPy y) := by
  cases x <;> cases y
  · exact congrArg _ h
  · exact h.elim
  · exact h.elim
  · exact h

theorem ExRel.mapM {ε α β γ : Type} {R : β → γ → Prop} {f : α → Except ε β} {g : α → Except ε γ} :
    ∀ (l : List α), (∀ a ∈ l, ExRel R (f a) (g a)) → ExRel (List.Forall₂ R) (l.mapM f) (l.mapM g)
  | [], _ => List.Forall₂.nil
  | a :: l, h => by
    rw [List.mapM_cons, List.mapM_cons]
    refine (h a (by simp)).bind fun b c hbc => ?_
    refine (ExRel.mapM l (fun a ha => h a (by simp [ha]))).bind fun bs cs hs => ?_
    exact List.Forall₂.cons hbc hs

/-! ## Values by timestep -/

theorem timeIdx_rel {V W : Type} (R : V → W → Prop) (time : List ℝ) : ∀ {l : List (ℝ × V)} {m : List (ℝ × W)},
    List.Forall₂ (fun p q => p.1 = q.1 ∧ R p.2 q.2) l m →
    ExRel (List.Forall₂ (fun p q => p.1 = q.1 ∧ R p.2 q.2)) (timeIdx time l) (timeIdx time m)
  | _, _, .nil => List.Forall₂.nil
  | (a, v) :: l, (b, w) :: m, .cons h hl => by
    obtain ⟨rfl, hv⟩ := h
    unfold timeIdx
    refine (ExRel.of_eq rfl).bind fun i j hij => ?_
    subst hij
    refine (timeIdx_rel R time hl).bind fun bs cs hs => ?_
    exact List.Forall₂.cons ⟨rfl, hv⟩ hs

theorem placeAll_rel {A B V W : Type} (R : V → W → Prop) (S : A → B → Prop) (f : A → V → A) (g : B → W → B)
    (hfg : ∀ a b v w, S a b → R v w → S (f a v) (g b w)) :
    ∀ {l : List (Nat × V)} {m : List (Nat × W)} {acc : List A} {acd : List B},
    List.Forall₂ (fun p q => p.1 = q.1 ∧ R p.2 q.2) l m → List.Forall₂ S acc acd →
    ExRel (List.Forall₂ S) (placeAll f l acc) (placeAll g m acd)
  | _, _, _, _, .nil, h => h
  | (i, v) :: l, (j, w) :: m, acc, acd, .cons h hl, ha => by
    obtain ⟨hij, hv⟩ := h
    simp only at hij
    subst hij
    unfold placeAll
    have hlen := ha.length_eq
    have hget := List.forall₂_iff_get.1 ha
    by_cases hi : i < acc.length
    · have hi' : i < acd.length := hlen ▸ hi
      rw [List.getElem?_eq_getElem hi, List.getElem?_eq_getElem hi']
      simp only []
      have hs := hget.2 i hi hi'
      refine placeAll_rel R S f g hfg hl ?_
      rw [List.forall₂_iff_get]
      refine ⟨by simp [hlen], fun k h1 h2 => ?_⟩
      simp only [List.get_eq_getElem, List.getElem_set]
      by_cases hk : i = k
      · subst hk
        simp only [if_true]
        exact hfg _ _ _ _ hs hv
      · simp only [if_neg hk]
        exact hget.2 k _ _
    · rw [List.getElem?_eq_none (by omega), List.getElem?_eq_none (by omega)]
      rfl

theorem ages2time_rel {A B V W : Type} (R : V → W → Prop) (S : A → B → Prop) (f : A → V → A) (g : B → W → B)
    (hfg : ∀ a b v w, S a b → R v w → S (f a v) (g b w)) (tol : ℝ) (time : List ℝ) {l : List (ℝ × V)}
    {m : List (ℝ × W)} (h : List.Forall₂ (fun p q => p.1 = q.1 ∧ R p.2 q.2) l m) {a : A} {b : B} (hab : S a b) :
    ExRel (List.Forall₂ S) (ages2time tol time l f a) (ages2time tol time m g b) := by
  unfold ages2time
  refine (ExRel.of_eq rfl).bind fun p q hpq => ?_
  subst hpq
  have hfil : ∀ {l : List (ℝ × V)} {m : List (ℝ × W)}, List.Forall₂ (fun p q => p.1 = q.1 ∧ R p.2 q.2) l m →
      List.Forall₂ (fun p q => p.1 = q.1 ∧ R p.2 q.2)
        (l.filter (fun x => decide (x.1 ≥ p.1) && decide (x.1 ≤ p.2)))
        (m.filter (fun x => decide (x.1 ≥ p.1) && decide (x.1 ≤ p.2))) := by
    intro l m h
    induction h with
    | nil => exact .nil
    | @cons x y l m hxy _ ih =>
      rw [List.filter_cons, List.filter_cons, hxy.1]
      split
      · exact .cons hxy ih
      · exact ih
  refine (timeIdx_rel R time (hfil h)).bind fun l' m' hl' => ?_
  refine placeAll_rel R S f g hfg hl' ?_
  rw [List.forall₂_iff_get]
  exact ⟨by simp, fun k h1 h2 => by simpa using hab⟩

/-! ## Source labels -/

/-- Sources concatenated as the code does. -/
def accLabel (l : List String) : String := (l.map (fun s => s ++ ",")).foldl (fun acc s => acc ++ s) ""

theorem accLabel_snoc (l : List String) (n : String) : accLabel (l ++ [n]) = accLabel l ++ (n ++ ",") := by
  simp [accLabel]

/-- The two labels list the same craters, of those in `ns`, by their two names. -/
def SameSources (N : String → String) (ns : List String) (a b : String) : Prop :=
  ∃ l : List String, (∀ n ∈ l, n ∈ ns) ∧ a = rstripComma (accLabel l) ∧ b = rstripComma (accLabel (l.map N))

theorem ejectaThicknessTime_rename (N : String → String) (ns : List String) (tol tm : ℝ) (time : List ℝ)
    (rows : List (EjRow ℝ)) (hns : ∀ r ∈ rows, r.cname ∈ ns) :
    ExRel (fun p q => p.1 = q.1 ∧ List.Forall₂ (SameSources N ns) p.2 q.2)
      (ejectaThicknessTime tol tm time rows)
      (ejectaThicknessTime tol tm time (rows.map (fun r => { r with cname := N r.cname }))) := by
  unfold ejectaThicknessTime
  refine (ExRel.of_eq ?_).bind fun p q hpq => ?_
  · rw [List.map_map]; rfl
  subst hpq
  have := ages2time_rel
    (fun v w : String => (v = "" ∧ w = "") ∨ ∃ n ∈ ns, v = n ++ "," ∧ w = N n ++ ",")
    (fun a b : String => ∃ l : List String, (∀ n ∈ l, n ∈ ns) ∧ a = accLabel l ∧ b = accLabel (l.map N))
    (fun acc s => acc ++ s) (fun acc s => acc ++ s) (by
      rintro a b v w ⟨l, h1, rfl, rfl⟩ (⟨rfl, rfl⟩ | ⟨n, hn, rfl, rfl⟩)
      · exact ⟨l, h1, by simp, by simp⟩
      · refine ⟨l ++ [n], ?_, (accLabel_snoc _ _).symm, ?_⟩
        · intro m hm
          rcases List.mem_append.1 hm with hm | hm
          · exact h1 m hm
          · rw [List.mem_singleton.1 hm]; exact hn
        · rw [List.map_append]; exact (accLabel_snoc _ _).symm) tol time
    (l := rows.map (fun r => (r.age, if r.thick > tm then r.cname ++ "," else "")))
    (m := (rows.map (fun r => { r with cname := N r.cname })).map
      (fun r => (r.age, if r.thick > tm then r.cname ++ "," else ""))) (by
      rw [List.map_map, List.forall₂_map_left_iff, List.forall₂_map_right_iff, List.forall₂_same]
      intro r hr
      refine ⟨rfl, ?_⟩
      by_cases ht : r.thick > tm
      · right
        exact ⟨r.cname, hns r hr, by simp [ht], by simp [ht]⟩
      · left
        exact ⟨by simp [ht], by simp [ht]⟩) (a := "") (b := "")
    ⟨[], by simp, by simp [accLabel], by simp [accLabel]⟩
  refine this.bind fun l m hlm => ?_
  refine ⟨rfl, ?_⟩
  rw [List.forall₂_map_left_iff, List.forall₂_map_right_iff]
  refine hlm.imp ?_
  rintro a b ⟨l, h1, rfl, rfl⟩
  exact ⟨l, h1, rfl, rfl⟩

/-! ## Columns -/

/-- Columns with the same ice and ejecta and related sources. -/
def SameCol (T : String → String → Prop) (a b : StratCol ℝ) : Prop :=
  a.ice = b.ice ∧ a.ej = b.ej ∧ List.Forall₂ T a.src b.src

/-- Dictionaries with the same keys and related entries. -/
def DictRel {α β : Type} (R : α → β → Prop) : PyDict α → PyDict β → Prop :=
  List.Forall₂ (fun p q => p.1 = q.1 ∧ R p.2 q.2)

theorem DictRel.set {α β : Type} {R : α → β → Prop} {x : PyDict α} {y : PyDict β} (h : DictRel R x y) (k : String)
    {a : α} {b : β} (hab : R a b) : DictRel R (x.set k a) (y.set k b) := by
  induction h with
  | nil => exact .cons ⟨rfl, hab⟩ .nil
  | @cons p q x y hpq _ ih =>
    obtain ⟨k1, v⟩ := p
    obtain ⟨k2, w⟩ := q
    obtain ⟨hk, hv⟩ := hpq
    simp only at hk hv
    subst hk
    unfold PyDict.set
    by_cases e : k1 = k
    · simp only [if_pos e]
      exact .cons ⟨rfl, hab⟩ (by assumption)
    · simp only [if_neg e]
      exact .cons ⟨rfl, hv⟩ ih

theorem DictRel.get {α β : Type} {R : α → β → Prop} {x : PyDict α} {y : PyDict β} (h : DictRel R x y) (k : String) :
    ExRel R (x.get k) (y.get k) := by
  induction h with
  | nil => exact rfl
  | @cons p q x y hpq _ ih =>
    obtain ⟨k1, v⟩ := p
    obtain ⟨k2, w⟩ := q
    obtain ⟨hk, hv⟩ := hpq
    simp only at hk hv
    subst hk
    unfold PyDict.get
    by_cases e : k1 = k
    · simp only [if_pos e]
      exact hv
    · simp only [if_neg e]
      exact ih

theorem pyGet_rel {α β : Type} {R : α → β → Prop} {x : List α} {y : List β} (h : List.Forall₂ R x y) (i : Nat) :
    ExRel R (pyGet x i) (pyGet y i) := by
  unfold pyGet
  have hlen := h.length_eq
  have hget := List.forall₂_iff_get.1 h
  by_cases hi : i < x.length
  · rw [List.getElem?_eq_getElem hi, List.getElem?_eq_getElem (hlen ▸ hi)]
    exact hget.2 i hi (hlen ▸ hi)
  · rw [List.getElem?_eq_none (by omega), List.getElem?_eq_none (by omega)]
    rfl

theorem buildCols_rel {T : String → String → Prop} (ice : List (List ℝ)) {ej ej' : List (List ℝ × List String)}
    (h : List.Forall₂ (fun p q => p.1 = q.1 ∧ List.Forall₂ T p.2 q.2) ej ej') : ∀ (names : List String) (i : Nat)
    {acc acc' : PyDict (StratCol ℝ)}, DictRel (SameCol T) acc acc' →
    ExRel (DictRel (SameCol T)) (buildCols ice ej i names acc) (buildCols ice ej' i names acc')
  | [], _, _, _, ha => ha
  | n :: names, i, acc, acc', ha => by
    unfold buildCols
    refine (pyGet_rel h i).bind fun e e' he => ?_
    exact buildCols_rel ice h names (i + 1) (ha.set n ⟨rfl, he.1, he.2⟩)

theorem updateTraps_rel {T : String → String → Prop} (shield : ℝ) (costello : Bool) (bd bf : List (List ℝ)) (t : Nat)
    (ov : ℝ) : ∀ (names : List String) (i : Nat) {x y : PyDict (StratCol ℝ)}, DictRel (SameCol T) x y →
    ExRel (DictRel (SameCol T)) (updateTraps id shield costello bd bf t ov i names x)
      (updateTraps id shield costello bd bf t ov i names y)
  | [], _, _, _, h => h
  | n :: names, i, x, y, h => by
    unfold updateTraps
    refine (h.get n).bind fun a b hab => ?_
    refine (ExRel.of_eq rfl).bind fun d d' hd => ?_
    subst hd
    refine (ExRel.of_eq rfl).bind fun f f' hf => ?_
    subst hf
    refine (ExRel.of_eq (by rw [hab.1, hab.2.1])).bind fun u v huv => ?_
    subst huv
    exact updateTraps_rel shield costello bd bf t ov names (i + 1) (h.set n ⟨rfl, hab.2.1, hab.2.2⟩)

theorem updateStratColsFrom_rel {T : String → String → Prop} (shield : ℝ) (costello : Bool) (names : List String)
    (bd bf : List (List ℝ)) : ∀ (ovs : List ℝ) (t : Nat) {x y : PyDict (StratCol ℝ)}, DictRel (SameCol T) x y →
    ExRel (DictRel (SameCol T)) (updateStratColsFrom id shield costello names bd bf t ovs x)
      (updateStratColsFrom id shield costello names bd bf t ovs y)
  | [], _, _, _, h => h
  | ov :: ovs, t, x, y, h => by
    unfold updateStratColsFrom
    refine (updateTraps_rel shield costello bd bf t ov names 0 h).bind fun a b hab => ?_
    exact updateStratColsFrom_rel shield costello names bd bf ovs (t + 1) hab

/-! ## The run -/

theorem coldtrapDist_rename {N : String → String} {names : List String} (h : KeepsTraps N names) (cfg : EjCfg)
    (df : List Crater) (row : Crater) (trap : String) (ht : trap ∈ names) :
    coldtrapDist cfg (df.map (renameCrater N)) (renameCrater N row) trap = coldtrapDist cfg df row trap := by
  have hf : (df.map (renameCrater N)).filter (fun c => decide (c.cname = trap)) =
      (df.filter (fun c => decide (c.cname = trap))).map (renameCrater N) := by
    rw [List.filter_map]
    congr 1
    refine List.filter_congr fun c _ => ?_
    exact decide_eq_decide.2 (h trap ht c.cname)
  unfold coldtrapDist
  rw [hf]
  have hn : (renameCrater N row).cname = trap ↔ row.cname = trap := h trap ht row.cname
  by_cases e : row.cname = trap
  · simp only [if_pos e, if_pos (hn.2 e)]
  · simp only [if_neg e, if_neg (fun e' => e (hn.1 e'))]
    cases hl : df.filter (fun c => decide (c.cname = trap)) with
    | nil => rfl
    | cons t l =>
      cases l with
      | cons u l => rfl
      | nil => rfl

theorem coldtrapDists_rename {N : String → String} {names : List String} (h : KeepsTraps N names) (cfg : EjCfg)
    (df : List Crater) : coldtrapDists cfg (df.map (renameCrater N)) names = coldtrapDists cfg df names := by
  unfold coldtrapDists
  rw [List.mapM_map]
  refine mapM_congr_mem fun row _ => ?_
  exact mapM_congr_mem fun t ht => coldtrapDist_rename h cfg df row t ht

theorem thicknessMatrix_rename (N : String → String) (c : RunCfg) (df : CraterTable) (dists : List (List (Option ℝ))) :
    thicknessMatrix c (df.map (renameRow N)) dists = thicknessMatrix c df dists := by
  unfold thicknessMatrix
  rw [List.zip_map_left, List.mapM_map]
  rfl

theorem ejRows_rename (N : String → String) (df : CraterTable) (thick : List ℝ) :
    ejRows (df.map (renameRow N)) thick = (ejRows df thick).map (fun r => { r with cname := N r.cname }) := by
  unfold ejRows
  rw [List.zipWith_map_left, List.map_zipWith]
  rfl

theorem iceCols_rename (N : String → String) (g : Gen σ) (c : RunCfg) (d : RunData) (df : CraterTable) (time : List ℝ)
    (s : σ) : iceCols g c d (df.map (renameRow N)) time s = iceCols g c d df time s := by
  have hic : ∀ c : RunCfg, icyRows c (df.map (renameRow N)) = (icyRows c df).map (renameRow N) := by
    intro c
    unfold icyRows
    rw [List.filter_map]
    rfl
  have e : ∀ (c : RunCfg) s, impactIce g c (df.map (renameRow N)) time s = impactIce g c df time s := by
    intro c s
    unfold impactIce iceBasins
    rw [hic]
    simp only [List.map_map, List.length_map]
    rfl
  unfold iceCols polarIce impactIceComet
  simp only [e]

theorem trapAges_rename {N : String → String} {names : List String} (h : KeepsTraps N names) (df : CraterTable) :
    trapAges (df.map (renameRow N)) names = trapAges df names := by
  unfold trapAges
  rw [mapM_congr_mem (f' := rowsNamed df)]
  intro t ht
  unfold rowsNamed
  have : (df.map (renameRow N)).filter (fun r => decide (r.rest.crater.cname = t)) =
      (df.filter (fun r => decide (r.rest.crater.cname = t))).map (renameRow N) := by
    rw [List.filter_map]
    congr 1
    refine List.filter_congr fun r _ => ?_
    exact decide_eq_decide.2 (h t ht r.rest.crater.cname)
  rw [this]
  cases df.filter (fun r => decide (r.rest.crater.cname = t)) with
  | nil => rfl
  | cons a l =>
    simp only [List.map_cons, List.map_map]
    rfl

/-- Results with the same columns and tables related by `Q`. -/
def SameOut (Q : List (StratRow ℝ) → List (StratRow ℝ) → Prop) (a b : CsvOut) : Prop :=
  a.ice = b.ice ∧ a.ej = b.ej ∧ DictRel Q a.strat b.strat

theorem formatLoop_rel {T : String → String → Prop} {Q : List (StratRow ℝ) → List (StratRow ℝ) → Prop} (c : RunCfg)
    (time : List ℝ)
    (hQ : ∀ (age : ℝ) (a b : StratCol ℝ), SameCol T a b →
      ExRel Q (makeStratCol c.thickness_min RunCfg.rtol c.strat_after_age age (toSteps time a))
        (makeStratCol c.thickness_min RunCfg.rtol c.strat_after_age age (toSteps time b)))
    {x y : PyDict (StratCol ℝ)} (h : DictRel (SameCol T) x y) : ∀ (ages : List (String × ℝ))
    {p q : CsvOut × List (List String)}, SameOut Q p.1 q.1 → p.2.length = q.2.length →
    ExRel (fun p q => SameOut Q p.1 q.1 ∧ p.2.length = q.2.length) (formatLoop c time x ages p)
      (formatLoop c time y ages q)
  | [], _, _, h1, h2 => ⟨h1, h2⟩
  | (n, age) :: ages, (o, s), (o', s'), h1, h2 => by
    unfold formatLoop
    refine (h.get n).bind fun a b hab => ?_
    refine (hQ age a b hab).bind fun t t' ht => ?_
    refine formatLoop_rel c time hQ h ages ?_ ?_
    · have e1 : o.ice = o'.ice := h1.1
      have e2 : o.ej = o'.ej := h1.2.1
      exact ⟨by simp only [e1, hab.1], by simp only [e2, hab.2.1], h1.2.2.set n ht⟩
    · simpa using h2

theorem runFrom_rename {N : String → String} {ns : List String}
    {Q : List (StratRow ℝ) → List (StratRow ℝ) → Prop} (g : Gen σ) (c : RunCfg) (d : RunData)
    (h : KeepsTraps N c.coldtrap_names) (sort : CraterTable → CraterTable) (time : List ℝ) (df : CraterTable)
    (hns : ∀ r ∈ df, r.rest.crater.cname ∈ ns) (s : σ)
    (hQ : ∀ (age : ℝ) (a b : StratCol ℝ), SameCol (SameSources N ns) a b →
      ExRel Q (makeStratCol c.thickness_min RunCfg.rtol c.strat_after_age age (toSteps time a))
        (makeStratCol c.thickness_min RunCfg.rtol c.strat_after_age age (toSteps time b))) :
    ExRel (SameOut Q) (runFrom g c d time df s) (runFrom g c (renameData N sort d) time (df.map (renameRow N)) s) := by
  unfold runFrom
  refine (ExRel.of_eq ?_).bind fun dists dists' hd => ?_
  · rw [show (df.map (renameRow N)).map (·.rest.crater) = (df.map (·.rest.crater)).map (renameCrater N) by
      rw [List.map_map, List.map_map]; rfl, coldtrapDists_rename h]
  subst hd
  refine (ExRel.of_eq (thicknessMatrix_rename N c df dists).symm).bind fun thick thick' ht => ?_
  subst ht
  have hi : ExRel (fun p q => DictRel (SameCol (SameSources N ns)) p.1 q.1 ∧ p.2 = q.2)
      (initStratCols g c d time df thick s)
      (initStratCols g c (renameData N sort d) time (df.map (renameRow N)) thick s) := by
    unfold initStratCols
    refine (ExRel.mapM (R := fun p q => p.1 = q.1 ∧ List.Forall₂ (SameSources N ns) p.2 q.2) _ ?_).bind
      fun ej ej' hej => ?_
    · intro i _
      rw [ejRows_rename]
      refine ejectaThicknessTime_rename N ns _ _ _ _ ?_
      intro r hr
      unfold ejRows at hr
      rw [List.mem_iff_getElem] at hr
      obtain ⟨k, hk, rfl⟩ := hr
      rw [List.getElem_zipWith]
      exact hns _ (List.getElem_mem _)
    have e : iceCols g c (renameData N sort d) (df.map (renameRow N)) time s = iceCols g c d df time s :=
      iceCols_rename N g c d df time s
    rw [e]
    refine (ExRel.of_eq rfl).bind fun p q hpq => ?_
    subst hpq
    refine (buildCols_rel p.1 hej c.coldtrap_names 0 (acc := []) (acc' := []) .nil).bind fun x y hxy => ?_
    exact ⟨hxy, rfl⟩
  refine hi.liftPy.bind fun p q hpq => ?_
  have hb : bsedArrays c (renameData N sort d) time (df.map (renameRow N)) dists thick =
      bsedArrays c d time df dists thick := by
    unfold bsedArrays
    simp only [List.map_map]
    rfl
  rw [hb]
  refine (ExRel.of_eq rfl).bind fun u v huv => ?_
  subst huv
  refine (updateStratColsFrom_rel ejShield c.impact_gardening_costello c.coldtrap_names u.1 u.2
    (overturnDepth c.overturn time) 0 hpq.1).liftPy.bind fun x y hxy => ?_
  refine ExRel.liftPy ?_
  unfold formatCsv
  rw [trapAges_rename h]
  refine (ExRel.of_eq rfl).bind fun a b hab => ?_
  subst hab
  refine (formatLoop_rel c time hQ hxy a (p := (⟨[], [], [], []⟩, [])) (q := (⟨[], [], [], []⟩, [])) ⟨rfl, rfl, .nil⟩ rfl).bind fun p q hpq => ?_
  obtain ⟨o, l⟩ := p
  obtain ⟨o', l'⟩ := q
  obtain ⟨h1, h2⟩ := hpq
  simp only at h1 h2 ⊢
  by_cases hl : l = []
  · have hl' : l' = [] := by
      rw [← List.length_eq_zero_iff] at hl ⊢
      omega
    rw [if_pos hl, if_pos hl']
    exact rfl
  · have hl' : ¬ l' = [] := by
      rw [← List.length_eq_zero_iff] at hl ⊢
      omega
    rw [if_neg hl, if_neg hl']
    exact h1

end MoonPIES
