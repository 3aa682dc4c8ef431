import Mathlib.Algebra.Order.Floor.Ring
import Mathlib.Data.Rat.Floor
import Mathlib.Algebra.Order.Ring.Rat
import Mathlib.Data.Rat.Floor
import Mathlib.Algebra.Order.Archimedean.Basic
import Verif.Lemmas.ColumnExact

/-!
# C01-C06: impact gardening of one column (`garden_ice_column`)
-/

namespace MoonPIES

open Spec

set_option linter.unusedSectionVars false

variable {K : Type} [Field K] [LinearOrder K] [IsStrictOrderedRing K]

theorem garden_turns (t : Int) : (2 * t + 2).toNat = 2 * (t + 1).toNat := by omega

/-- A concrete column used below: four layers, ejecta shields of different size. -/
def exIce : List ℚ := [4, 3, 1 / 2, 2]
/-- Ejecta of the example column. -/
def exEj : List ℚ := [0, 1 / 10, 1 / 5, 0]

/-- **C01** For every column, every `t` that indexes it (or `-1`), every depth,
every efficiency in `[0,1]` and every rounding: gardening succeeds, keeps the
number of layers, and leaves each layer between 0 and what it held. -/
theorem C01_garden_only_loses {fl : K → K} (hfl : Rounding fl) (ice ej : List K) (t : Int)
    (depth eff : K) (hice : ∀ x ∈ ice, 0 ≤ x) (hrepr : ∀ x ∈ ice, Repr fl x)
    (hdepth : Repr fl depth) (he0 : 0 ≤ eff) (he1 : eff ≤ 1)
    (hti : t < ice.length) (hte : t < ej.length) :
    ∃ ice', gardenIceColumn fl ice ej t depth eff = .ok ice' ∧ OnlyLosesIce ice ice' := by
  unfold gardenIceColumn
  rw [garden_turns]
  obtain ⟨ice', h⟩ := gardenLoop_total fl ej depth eff (t + 1).toNat 0 ice (by omega) (by omega)
  exact ⟨ice', h, (gardenLoop_safe hfl ej hdepth he0 he1 _ _ _ _ hice hrepr h).1⟩

/-- The hypotheses of C01 in a case where layers lose a fraction, one is cut
short by the depth budget and one is out of reach. -/
example : gardenIceColumn (fun x => x) exIce exEj 3 2 (1 / 2) = .ok [4, 51 / 20, 1 / 4, 1] ∧
    OnlyLosesIce exIce [4, 51 / 20, 1 / 4, 1] := by
  have h : gardenIceColumn (fun x => x) exIce exEj 3 2 (1 / 2) = .ok [4, 51 / 20, 1 / 4, 1] := by
    decide +kernel
  obtain ⟨ice', h1, h2⟩ := C01_garden_only_loses Rounding.id exIce exEj 3 2 (1 / 2)
    (by decide +kernel) (fun _ _ => rfl) rfl (by decide +kernel) (by decide +kernel)
    (by decide) (by decide)
  refine ⟨h, ?_⟩
  rw [h] at h1; cases h1; exact h2

/-- A genuinely lossy rounding satisfies the hypotheses too: rounding down to
whole numbers. -/
example : Rounding (fun x : ℚ => ((⌊x⌋ : ℤ) : ℚ)) where
  mono := fun a b h => by
    show ((⌊a⌋ : ℤ) : ℚ) ≤ ((⌊b⌋ : ℤ) : ℚ)
    exact_mod_cast Int.floor_le_floor h
  zero := by simp
  idem := by intro x; simp

/-- **C02** Gardening at time `t` changes no layer above `t` and keeps the
number of layers (ejecta is an input and is not returned). -/
theorem C02_garden_frame (fl : K → K) (ice ej : List K) (t : Int) (depth eff : K)
    (ice' : List K) (h : gardenIceColumn fl ice ej t depth eff = .ok ice') :
    ice'.length = ice.length ∧ ∀ i : Nat, t < i → ice'[i]? = ice[i]? := by
  unfold gardenIceColumn at h
  rw [garden_turns] at h
  obtain ⟨h1, h2⟩ := gardenLoop_frame fl ej depth eff _ _ _ _ h
  exact ⟨h1, fun i hi => h2 i (by omega)⟩

/-- **C02** At `t = -1` (the sedimentation call of the first timestep) nothing
happens, whatever the column. -/
theorem C02_garden_before_start (fl : K → K) (ice ej : List K) (depth eff : K) :
    gardenIceColumn fl ice ej (-1) depth eff = .ok ice := rfl

/-- **C02** Gardening to a depth `≤ 0` changes nothing, whatever `t`. -/
theorem C02_garden_no_depth (fl : K → K) (ice ej : List K) (t : Int) (depth eff : K)
    (h : depth ≤ 0) : gardenIceColumn fl ice ej t depth eff = .ok ice := by
  unfold gardenIceColumn
  cases (2 * t + 2).toNat with
  | zero => rfl
  | succ n => rw [gardenLoop, if_neg (not_lt.2 h)]

/-- C02 on a column where a layer above `t` would otherwise be wiped out. -/
example : gardenIceColumn (fun x => x) exIce exEj 2 2 1 = .ok [18 / 5, 13 / 10, 0, 2] ∧
    (∀ i : Nat, (2 : Int) < i → ([18 / 5, 13 / 10, 0, 2] : List ℚ)[i]? = exIce[i]?) := by
  have h : gardenIceColumn (fun x => x) exIce exEj 2 2 1 = .ok [18 / 5, 13 / 10, 0, 2] := by
    decide +kernel
  exact ⟨h, (C02_garden_frame _ _ _ _ _ _ _ h).2⟩

/-- **C04** (existence) With exact arithmetic, gardening returns a column
satisfying the depth-budget rule. -/
theorem C04_garden_rule (ice ej : List K) (t : Nat) (depth eff : K)
    (hice : ∀ x ∈ ice, 0 ≤ x) (hej : ∀ x ∈ ej, 0 ≤ x) (he0 : 0 ≤ eff) (he1 : eff ≤ 1)
    (ice' : List K) (h : gardenIceColumn (fun x => x) ice ej t depth eff = .ok ice') :
    GardenRule ice ej t depth eff ice' := by
  unfold gardenIceColumn at h
  rw [toNat_two_mul] at h
  obtain ⟨h1, h2⟩ := gardenLoop_frame _ ej depth eff _ _ _ _ h
  refine ⟨h1, ?_⟩
  intro i x x' hx hx'
  by_cases hi : i ≤ t
  · have := gardenLoop_rule hej he0 he1 _ _ _ _ hice h i x x' (by omega) hx hx'
    rw [zero_add] at this
    simp only [hi, true_and, depthToIce]
    exact this
  · rw [if_neg (by simp [hi])]
    have := h2 i (by omega)
    rw [hx, hx'] at this
    exact Option.some.inj this

/-- Monotonicity of the depth-budget rule in all four inputs. -/
theorem gardenRule_mono {ice₁ ice₂ ej₁ ej₂ : List K} {t : Nat} {depth₁ depth₂ eff₁ eff₂ : K}
    {r₁ r₂ : List K} (h₁ : GardenRule ice₁ ej₁ t depth₁ eff₁ r₁)
    (h₂ : GardenRule ice₂ ej₂ t depth₂ eff₂ r₂)
    (hice0 : ∀ x ∈ ice₁, 0 ≤ x)
    (hice : List.Forall₂ (· ≤ ·) ice₁ ice₂) (hej : List.Forall₂ (· ≤ ·) ej₁ ej₂)
    (hdepth : depth₂ ≤ depth₁) (heff : eff₂ ≤ eff₁) (heff1 : eff₂ ≤ 1) (heff0 : 0 ≤ eff₁) :
    List.Forall₂ (· ≤ ·) r₁ r₂ := by
  rw [forall₂_iff_getElem?] at *
  have hlen : r₁.length = r₂.length := by rw [h₁.1, h₂.1, hice.1]
  refine ⟨hlen, ?_⟩
  -- downward induction on the layer
  have key : ∀ n i : Nat, t + 1 - i ≤ n → ∀ x x', r₁[i]? = some x → r₂[i]? = some x' → x ≤ x' := by
    intro n
    induction n with
    | zero =>
      intro i hi x x' hx hx'
      have hlt := (List.getElem?_eq_some_iff.1 hx).1
      have e1 : ice₁[i]? = some (ice₁[i]'(h₁.1 ▸ hlt)) := List.getElem?_eq_getElem _
      have e2 : ice₂[i]? = some (ice₂[i]'(hice.1 ▸ h₁.1 ▸ hlt)) := List.getElem?_eq_getElem _
      have a1 := h₁.2 i _ _ e1 hx
      have a2 := h₂.2 i _ _ e2 hx'
      rw [if_neg (by omega)] at a1 a2
      rw [a1, a2]
      exact hice.2 i _ _ e1 e2
    | succ n ih =>
      intro i hi x x' hx hx'
      have hlt := (List.getElem?_eq_some_iff.1 hx).1
      have e1 : ice₁[i]? = some (ice₁[i]'(h₁.1 ▸ hlt)) := List.getElem?_eq_getElem _
      have e2 : ice₂[i]? = some (ice₂[i]'(hice.1 ▸ h₁.1 ▸ hlt)) := List.getElem?_eq_getElem _
      have a1 := h₁.2 i _ _ e1 hx
      have a2 := h₂.2 i _ _ e2 hx'
      have hle := hice.2 i _ _ e1 e2
      have hx0 : 0 ≤ ice₁[i]'(h₁.1 ▸ hlt) := hice0 _ (List.mem_of_getElem? e1)
      generalize ice₁[i]'(h₁.1 ▸ hlt) = y₁ at *
      generalize ice₂[i]'(hice.1 ▸ h₁.1 ▸ hlt) = y₂ at *
      have hd : depthToIce r₁ ej₁ t i ≤ depthToIce r₂ ej₂ t i := by
        unfold depthToIce
        apply add_le_add
        · exact seg_le_seg hej.1 _ _ (fun j x x' _ _ => hej.2 j x x')
        · exact seg_le_seg hlen _ _ (fun j x x' h1 h2 => ih j (by omega) x x')
      generalize depthToIce r₁ ej₁ t i = d₁ at *
      generalize depthToIce r₂ ej₂ t i = d₂ at *
      have hy2 : 0 ≤ y₂ := hx0.trans hle
      by_cases c2 : i ≤ t ∧ d₂ < depth₂
      · have c1 : i ≤ t ∧ d₁ < depth₁ := ⟨c2.1, by linarith [c2.2]⟩
        rw [if_pos c1] at a1; rw [if_pos c2] at a2
        rw [a1, a2]
        rcases min_choice (y₁ * eff₁) (depth₁ - d₁) with m1 | m1 <;> rw [m1]
        · have h3 : min (y₂ * eff₂) (depth₂ - d₂) ≤ y₂ * eff₂ := min_le_left _ _
          have h4 : y₁ * eff₂ ≤ y₁ * eff₁ := mul_le_mul_of_nonneg_left heff hx0
          have h5 : (y₂ - y₁) * eff₂ ≤ (y₂ - y₁) :=
            mul_le_of_le_one_right (by linarith) heff1
          have h6 : (y₂ - y₁) * eff₂ = y₂ * eff₂ - y₁ * eff₂ := by ring
          linarith
        · have h3 : min (y₂ * eff₂) (depth₂ - d₂) ≤ depth₂ - d₂ := min_le_right _ _
          linarith
      · rw [if_neg c2] at a2
        rw [a2, a1]
        split
        · rename_i c1
          have : 0 ≤ min (y₁ * eff₁) (depth₁ - d₁) :=
            le_min (mul_nonneg hx0 heff0) (by linarith [c1.2])
          linarith
        · exact hle
  intro i x x' hx hx'
  exact key _ i (le_refl _) x x' hx hx'

theorem forall₂_le_refl (l : List K) : List.Forall₂ (· ≤ ·) l l := by
  rw [forall₂_iff_getElem?]
  refine ⟨rfl, ?_⟩
  intro i x x' h h'; rw [h] at h'; cases h'; exact le_refl _

theorem forall₂_le_antisymm {l l' : List K} (h : List.Forall₂ (· ≤ ·) l l')
    (h' : List.Forall₂ (· ≤ ·) l' l) : l = l' := by
  induction h with
  | nil => rfl
  | cons hab _ ih =>
    cases h' with
    | cons hba h2 => rw [le_antisymm hab hba, ih h2]

/-- **C04** (uniqueness) The depth-budget rule determines the column, so
gardening is exactly "the" column with that property. -/
theorem C04_garden_rule_unique (ice ej : List K) (t : Nat) (depth eff : K)
    (hice : ∀ x ∈ ice, 0 ≤ x) (he0 : 0 ≤ eff) (he1 : eff ≤ 1) (r₁ r₂ : List K)
    (h₁ : GardenRule ice ej t depth eff r₁) (h₂ : GardenRule ice ej t depth eff r₂) :
    r₁ = r₂ :=
  forall₂_le_antisymm
    (gardenRule_mono h₁ h₂ hice (forall₂_le_refl _) (forall₂_le_refl _) le_rfl le_rfl he1 he0)
    (gardenRule_mono h₂ h₁ hice (forall₂_le_refl _) (forall₂_le_refl _) le_rfl le_rfl he1 he0)

/-- C04 pins the result of a partial removal: the third layer down is cut at
the depth budget. -/
example : GardenRule exIce exEj 3 2 (1 / 2) [4, 51 / 20, 1 / 4, 1] :=
  C04_garden_rule _ _ _ _ _ (by decide +kernel) (by decide +kernel) (by decide +kernel)
    (by decide +kernel) _ (by decide +kernel)

/-- **C03** (exact arithmetic) Layer `i` loses at most `depth` minus the ejecta
of layers `i..t`, and nothing when that ejecta reaches `depth`. -/
theorem C03_ejecta_shields (ice ej : List K) (t : Nat) (depth eff : K)
    (hice : ∀ x ∈ ice, 0 ≤ x) (hej : ∀ x ∈ ej, 0 ≤ x) (he0 : 0 ≤ eff) (he1 : eff ≤ 1)
    (ice' : List K) (h : gardenIceColumn (fun x => x) ice ej t depth eff = .ok ice')
    (i : Nat) (x x' : K) (hx : ice[i]? = some x) (hx' : ice'[i]? = some x') :
    x - x' ≤ max 0 (depth - seg ej i (t + 1)) := by
  have hrule := (C04_garden_rule ice ej t depth eff hice hej he0 he1 ice' h).2 i x x' hx hx'
  have hnn : ∀ y ∈ ice', 0 ≤ y := by
    unfold gardenIceColumn at h
    rw [toNat_two_mul] at h
    exact onlyLoses_nonneg (gardenLoop_safe Rounding.id ej rfl he0 he1 _ _ _ _ hice
      (fun _ _ => rfl) h).1
  rw [hrule]
  split
  · have h1 : min (x * eff) (depth - depthToIce ice' ej t i) ≤ depth - depthToIce ice' ej t i :=
      min_le_right _ _
    have h2 := seg_nonneg hnn (i + 1) (t + 1)
    have h3 : depth - seg ej i (t + 1) ≤ max 0 (depth - seg ej i (t + 1)) := le_max_right _ _
    unfold depthToIce at *
    linarith
  · simp

theorem gardenLoop_shield {fl : K → K} (hfl : Rounding fl) {ej : List K} {depth eff : K}
    (hej : ∀ x ∈ ej, 0 ≤ x) (hejr : ∀ x ∈ ej, Repr fl x)
    (hd : Repr fl depth) (he0 : 0 ≤ eff) (he1 : eff ≤ 1) :
    ∀ (k : Nat) (d : K) (ice ice' : List K), 0 ≤ d →
      (∀ x ∈ ice, 0 ≤ x) → (∀ x ∈ ice, Repr fl x) →
      gardenLoop fl ej depth eff (2 * k) d ice = .ok ice' →
      ∀ (j : Nat) e, j < k → ej[j]? = some e → depth ≤ e →
        ∀ i, i ≤ j → ice'[i]? = ice[i]? := by
  intro k
  induction k with
  | zero => intro d ice ice' _ _ _ _ j e hj; omega
  | succ k ih =>
    intro d ice ice' hd0 h0 hr h j e hj hje hde i hij
    rw [gardenLoop_layer] at h
    split at h
    · split at h
      · cases h
      · rename_i f hf
        have hf0 := hej f (List.mem_of_getElem? hf)
        split at h
        · rename_i hlt
          have hjk : j < k := by
            by_contra hc
            have : j = k := by omega
            subst this
            rw [hje] at hf; cases hf
            have h1 : e ≤ d + e := by linarith
            have h2 := hfl.mono h1
            rw [hejr e (List.mem_of_getElem? hje)] at h2
            exact absurd hlt (not_lt.2 (hde.trans h2))
          split at h
          · cases h
          · rename_i x hx
            have hxm := List.mem_of_getElem? hx
            obtain ⟨hr0, hr1⟩ := removed_bounds hfl (h0 x hxm) (hr x hxm) he0 he1 hd hlt
            obtain ⟨hl0, hl1⟩ := left_bounds hfl (hr x hxm) hr0 hr1
            have hd1 : 0 ≤ fl (d + f) := by
              have := hfl.mono (add_nonneg hd0 hf0); rwa [hfl.zero] at this
            have hnext := hfl.mono (add_nonneg hd1 hl0)
            rw [hfl.zero] at hnext
            have := ih _ _ _ hnext (onlyLoses_nonneg (onlyLoses_set h0 hx hl0 hl1))
              (repr_set hfl hr k _) h j e hjk hje hde i hij
            rw [this, List.getElem?_set_ne (by omega)]
        · cases h; rfl
    · cases h; rfl

/-- **C03** (any rounding) An ejecta layer `j ≤ t` at least as thick as `depth`
protects the ice of layer `j` and of every older layer completely. -/
theorem C03_thick_ejecta_shields {fl : K → K} (hfl : Rounding fl) (ice ej : List K) (t : Nat)
    (depth eff : K) (hice : ∀ x ∈ ice, 0 ≤ x) (hrepr : ∀ x ∈ ice, Repr fl x)
    (hej : ∀ x ∈ ej, 0 ≤ x) (hejr : ∀ x ∈ ej, Repr fl x) (hdepth : Repr fl depth)
    (he0 : 0 ≤ eff) (he1 : eff ≤ 1) (ice' : List K)
    (h : gardenIceColumn fl ice ej t depth eff = .ok ice')
    (j : Nat) (e : K) (hjt : j ≤ t) (hje : ej[j]? = some e) (hde : depth ≤ e)
    (i : Nat) (hij : i ≤ j) : ice'[i]? = ice[i]? := by
  unfold gardenIceColumn at h
  rw [toNat_two_mul] at h
  exact gardenLoop_shield hfl hej hejr hdepth he0 he1 _ _ _ _ le_rfl hice hrepr h j e
    (by omega) hje hde i hij

/-- C03 where the shield is in the middle of the column and layers above it are lost. -/
example : gardenIceColumn (fun x => x) [4, 3, 1 / 2, 2] [0, 5, 1 / 5, 0] 3 4 1 =
    (.ok [4, 3, 0, 0] : Except PyErr (List ℚ)) := by decide +kernel

/-- **C06** More delivered ice or more ejecta, or shallower or less efficient
gardening, never leaves less ice in any layer. -/
theorem C06_garden_monotone (ice₁ ice₂ ej₁ ej₂ : List K) (t : Nat)
    (depth₁ depth₂ eff₁ eff₂ : K) (r₁ r₂ : List K)
    (hice₁ : ∀ x ∈ ice₁, 0 ≤ x) (hej₁ : ∀ x ∈ ej₁, 0 ≤ x)
    (hice : List.Forall₂ (· ≤ ·) ice₁ ice₂) (hej : List.Forall₂ (· ≤ ·) ej₁ ej₂)
    (hdepth : depth₂ ≤ depth₁) (heff : eff₂ ≤ eff₁) (he0 : 0 ≤ eff₂) (he1 : eff₁ ≤ 1)
    (h₁ : gardenIceColumn (fun x => x) ice₁ ej₁ t depth₁ eff₁ = .ok r₁)
    (h₂ : gardenIceColumn (fun x => x) ice₂ ej₂ t depth₂ eff₂ = .ok r₂) :
    List.Forall₂ (· ≤ ·) r₁ r₂ := by
  have nn : ∀ {a b : List K}, List.Forall₂ (· ≤ ·) a b → (∀ x ∈ a, 0 ≤ x) → ∀ x ∈ b, 0 ≤ x := by
    intro a b hab
    induction hab with
    | nil => intro _; simp
    | cons hle _ ih =>
      intro ha x hx
      rcases List.mem_cons.1 hx with rfl | hx
      · exact (ha _ (by simp)).trans hle
      · exact ih (fun y hy => ha y (by simp [hy])) x hx
  exact gardenRule_mono
    (C04_garden_rule _ _ _ _ _ hice₁ hej₁ (he0.trans heff) he1 _ h₁)
    (C04_garden_rule _ _ _ _ _ (nn hice hice₁) (nn hej hej₁) he0 (heff.trans he1) _ h₂)
    hice₁ hice hej hdepth heff (heff.trans he1) (he0.trans heff)

/-- C06 on a pair of runs that differ in all four inputs. -/
example : List.Forall₂ (· ≤ ·) [16 / 5, 11 / 10, 0, 0] ([4, 31 / 10, 7 / 8, 1] : List ℚ) := by
  refine C06_garden_monotone [4, 3, 1, 2] [4, 3 + 1 / 10, 1, 2] [0, 1 / 10, 0, 0]
    [0, 1 / 10, 3 / 8, 0] 3 2 (3 / 2) 1 (1 / 2) _ _ ?_ ?_ ?_ ?_ ?_ ?_ ?_ ?_ ?_ ?_ <;> decide +kernel

/-- **C05 refuted.** A column of `n + 1` layers, each exactly `depth` thick and
without ejecta, is wiped out completely: gardening to `depth` removes
`(n + 1) * depth` metres of ice.  (The running depth counts the ice *left* in a
layer, which is zero.) -/
theorem C05_refuted_thin_layers (depth : K) (hd : 0 < depth) (n : Nat) :
    gardenIceColumn (fun x => x) (List.replicate (n + 1) depth) (List.replicate (n + 1) 0) n
      depth 1 = .ok (List.replicate (n + 1) 0) := by
  obtain ⟨r, hr, _⟩ := C01_garden_only_loses (K := K) Rounding.id
    (List.replicate (n + 1) depth) (List.replicate (n + 1) 0) n depth 1
    (by intro x hx; rw [List.eq_of_mem_replicate hx]; exact hd.le) (fun _ _ => rfl) rfl
    zero_le_one le_rfl (by simp) (by simp)
  have h1 := C04_garden_rule (K := K) _ _ _ _ _
    (by intro x hx; rw [List.eq_of_mem_replicate hx]; exact hd.le)
    (by intro x hx; rw [List.eq_of_mem_replicate hx]) zero_le_one le_rfl _ hr
  have h2 : GardenRule (List.replicate (n + 1) depth) (List.replicate (n + 1) (0 : K)) n depth 1
      (List.replicate (n + 1) 0) := by
    refine ⟨by simp, ?_⟩
    intro i x x' hx hx'
    have hi : i < n + 1 := by
      have := (List.getElem?_eq_some_iff.1 hx).1; simpa using this
    have ex : x = depth := List.eq_of_mem_replicate (List.mem_of_getElem? hx)
    have ex' : x' = 0 := List.eq_of_mem_replicate (List.mem_of_getElem? hx')
    have hz : ∀ a b, seg (List.replicate (n + 1) (0 : K)) a b = 0 := by
      intro a b; unfold seg; simp
    simp only [depthToIce, hz]
    subst ex ex'
    rw [if_pos ⟨by omega, by simpa using hd⟩]
    simp
  have h3 := C04_garden_rule_unique (K := K) _ _ _ _ _
    (by intro x hx; rw [List.eq_of_mem_replicate hx]; exact hd.le) zero_le_one le_rfl _ _ h1 h2
  rw [hr, h3]

/-- **C05 refuted.** No multiple of the depth bounds the ice removed: the
documented "gardened to depth" fails, and by an arbitrary factor. -/
theorem C05_refuted (c : ℚ) :
    ¬ ∀ (ice ej : List ℚ) (t : Nat) (depth : ℚ) (ice' : List ℚ),
      (∀ x ∈ ice, 0 ≤ x) → (∀ x ∈ ej, 0 ≤ x) → 0 ≤ depth →
      gardenIceColumn (fun x => x) ice ej t depth 1 = .ok ice' →
      ice.sum - ice'.sum ≤ c * depth := by
  intro hall
  obtain ⟨n, hn⟩ := exists_nat_gt c
  have := hall (List.replicate (n + 1) 1) (List.replicate (n + 1) 0) n 1
    (List.replicate (n + 1) 0)
    (by intro x hx; rw [List.eq_of_mem_replicate hx]; exact zero_le_one)
    (by intro x hx; rw [List.eq_of_mem_replicate hx])
    zero_le_one (C05_refuted_thin_layers 1 zero_lt_one n)
  simp at this
  linarith

theorem sum_sub_le {l l' b : List K} (h : List.Forall₂ (fun _ _ => True) l l')
    (hlen : b.length = l.length)
    (hb : ∀ (i : Nat) x x' y, l[i]? = some x → l'[i]? = some x' → b[i]? = some y → x - x' ≤ y) :
    l.sum - l'.sum ≤ b.sum := by
  induction h generalizing b with
  | nil => cases b with
    | nil => simp
    | cons _ _ => simp at hlen
  | @cons x x' l l' _ _ ih =>
    cases b with
    | nil => simp at hlen
    | cons y b =>
      have h1 := hb 0 x x' y (by simp) (by simp) (by simp)
      have h2 := ih (b := b) (by simpa using hlen)
        (fun i a a' c ha ha' hc => hb (i + 1) a a' c (by simpa using ha) (by simpa using ha')
          (by simpa using hc))
      simp only [List.sum_cons]
      linarith

/-- **C05 (partial).** Full claim: the total removed is at most `depth`; that is
refuted above.  What does hold: the total removed is at most the sum, over the
layers at or below `t`, of the part of `depth` not covered by the ejecta above
that layer's ice. -/
theorem C05_removed_partial (ice ej : List K) (t : Nat) (depth eff : K)
    (hice : ∀ x ∈ ice, 0 ≤ x) (hej : ∀ x ∈ ej, 0 ≤ x) (he0 : 0 ≤ eff) (he1 : eff ≤ 1)
    (ice' : List K) (h : gardenIceColumn (fun x => x) ice ej t depth eff = .ok ice') :
    ice.sum - ice'.sum ≤ ((List.range ice.length).map
      (fun i => if i ≤ t then max 0 (depth - seg ej i (t + 1)) else 0)).sum := by
  apply sum_sub_le
  · rw [forall₂_iff_getElem?]
    exact ⟨((C02_garden_frame _ _ _ _ _ _ _ h).1).symm, fun _ _ _ _ _ => trivial⟩
  · simp
  · intro i x x' y hx hx' hy
    have hi := (List.getElem?_eq_some_iff.1 hx).1
    have hy' : y = if i ≤ t then max 0 (depth - seg ej i (t + 1)) else 0 := by
      simpa [hi] using hy.symm
    rw [hy']
    split
    · exact C03_ejecta_shields ice ej t depth eff hice hej he0 he1 ice' h i x x' hx hx'
    · rename_i hit
      have := (C02_garden_frame _ _ _ _ _ _ _ h).2 i (by omega)
      rw [hx, hx'] at this
      cases this
      simp

/-- The bound of the partial C05 is attained: three bare layers of thickness
`depth` lose `3 * depth`. -/
example : gardenIceColumn (fun x => x) [1, 1, 1] [0, 0, 0] 2 1 1 =
    (.ok [0, 0, 0] : Except PyErr (List ℚ)) := C05_refuted_thin_layers 1 (by decide +kernel) 2

end MoonPIES
