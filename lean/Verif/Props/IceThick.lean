import Verif.Model.Ice
import Verif.Lemmas.Except
import Mathlib.Tactic.FieldSimp
import Mathlib.Tactic.Ring
import Mathlib.Tactic.Linarith
import Mathlib.Tactic.NormNum
import Mathlib.Tactic.Positivity

/-!
# C43, C44: ice thickness and the share of each cold trap
-/

namespace MoonPIES

set_option linter.unusedSectionVars false

variable {K : Type} [Field K] [LinearOrder K] [IsStrictOrderedRing K]

/-- Spec: `area` is the configured cold-trap area of the configured species. -/
def AreaOf (cfg : IceCfg K) (area : K) : Prop :=
  (cfg.ice_species = "H2O" ∧ area = cfg.coldtrap_area_H2O) ∨
  (cfg.ice_species = "CO2" ∧ area = cfg.coldtrap_area_CO2)

theorem iceThickness_eq (cfg : IceCfg K) (area m : K) (ha : AreaOf cfg area) :
    iceThickness cfg m = .ok (m * cfg.ballistic_hop_effcy / cfg.ice_density / area) := by
  unfold iceThickness
  rcases ha with ⟨hs, rfl⟩ | ⟨hs, rfl⟩
  · simp only [hs, if_true]; rfl
  · have h : ("CO2" : String) ≠ "H2O" := by decide
    simp only [hs, if_true, h, if_false]; rfl

/-- **C43** mass balance: thickness times area times density is the delivered fraction
of the mass; negative only for negative mass. -/
theorem C43_mass_balance (cfg : IceCfg K) (area m : K) (ha : AreaOf cfg area) (h0 : 0 < area)
    (hd : 0 < cfg.ice_density) :
    ∃ x, iceThickness cfg m = .ok x ∧ x * area * cfg.ice_density = cfg.ballistic_hop_effcy * m ∧
      (0 ≤ cfg.ballistic_hop_effcy → 0 ≤ m → 0 ≤ x) := by
  refine ⟨_, iceThickness_eq cfg area m ha, ?_, ?_⟩
  · field_simp
  · intro h1 h2; positivity

/-- **C43** additive in the mass. -/
theorem C43_additive (cfg : IceCfg K) (m m' x x' y : K) (hx : iceThickness cfg m = .ok x)
    (hx' : iceThickness cfg m' = .ok x') (hy : iceThickness cfg (m + m') = .ok y) : y = x + x' := by
  have key : ∀ z w, iceThickness cfg z = .ok w → ∃ a, AreaOf cfg a := by
    intro z w h
    unfold iceThickness at h
    by_cases h1 : cfg.ice_species = "H2O"
    · exact ⟨_, Or.inl ⟨h1, rfl⟩⟩
    · by_cases h2 : cfg.ice_species = "CO2"
      · exact ⟨_, Or.inr ⟨h2, rfl⟩⟩
      · simp only [h1, h2, if_false] at h
        exact absurd h (by intro h; cases h)
  obtain ⟨a, ha⟩ := key m x hx
  rw [iceThickness_eq cfg a _ ha, Except.ok.injEq] at hx hx' hy
  rw [← hx, ← hx', ← hy]
  ring

/-- **C43** another species stops the run with an unbound variable. -/
theorem C43_unknown_species (cfg : IceCfg K) (m : K) (h1 : cfg.ice_species ≠ "H2O")
    (h2 : cfg.ice_species ≠ "CO2") : iceThickness cfg m = .error .unboundLocalError := by
  unfold iceThickness
  simp only [h1, h2, if_false]; rfl

example : iceThickness (⟨"H2O", 100, 50, 1 / 2, 10⟩ : IceCfg ℚ) 4000 = .ok 2 := by decide +kernel

/-! ### Shares of the cold traps -/

theorem zipWith_get {α β γ : Type} (f : α → β → γ) (l : List α) (m : List β) (i : Nat) (a : α) (b : β)
    (h1 : l[i]? = some a) (h2 : m[i]? = some b) : (List.zipWith f l m)[i]? = some (f a b) := by
  rw [List.getElem?_zipWith, h1, h2]

/-- **C44** every (time, trap) entry of `get_ice_cols_time`, in mass: the polar mass of
that time times the hop efficiency of that trap (its own from the table, or the constant
one) plus the volcanic mass times the volcanic deposition efficiency (or the same hop
efficiency).  Each mass enters exactly once; non-negative inputs give non-negative ice. -/
theorem C44_ice_cols (cfg : ColsCfg K) (table : PyDict K) (area : K) (mp mv polar volc : List K)
    (ha : AreaOf cfg.toIceCfg area) (h0 : 0 < area) (hd : 0 < cfg.ice_density)
    (hhop : 0 < cfg.ballistic_hop_effcy) (hlen : mp.length = mv.length)
    (hp : mp.mapM (fun m => iceThickness cfg.toIceCfg m) = .ok polar)
    (hv : mv.mapM (fun m => iceThickness cfg.toIceCfg m) = .ok volc)
    (htab : cfg.ballistic_hop_moores = true → ∀ n ∈ cfg.coldtrap_names, ∃ x, PyDict.get table n = .ok x) :
    ∃ rows, iceColsTime cfg table polar volc = .ok rows ∧ rows.length = mp.length ∧
      ∀ (i j : Nat) a b n, mp[i]? = some a → mv[i]? = some b → cfg.coldtrap_names[j]? = some n →
        ∃ row x hop share, rows[i]? = some row ∧ row.length = cfg.coldtrap_names.length ∧
          row[j]? = some x ∧
          (if cfg.ballistic_hop_moores then PyDict.get table n = .ok hop
            else hop = cfg.ballistic_hop_effcy) ∧
          share = (if cfg.use_volc_dep_effcy then cfg.volc_dep_effcy else hop) ∧
          x * area * cfg.ice_density = a * hop + b * share ∧
          (0 ≤ a → 0 ≤ b → 0 ≤ hop → 0 ≤ cfg.volc_dep_effcy → 0 ≤ x) := by
  -- the two thickness columns
  have hcol : ∀ (ms out : List K), ms.mapM (fun m => iceThickness cfg.toIceCfg m) = .ok out →
      out = ms.map (fun m => m * cfg.ballistic_hop_effcy / cfg.ice_density / area) := by
    intro ms
    induction ms with
    | nil => intro out h; simp only [List.mapM_nil] at h; cases h; rfl
    | cons m ms ih =>
      intro out h
      rw [List.mapM_cons, iceThickness_eq cfg.toIceCfg area m ha] at h
      cases hm : ms.mapM (fun m => iceThickness cfg.toIceCfg m) with
      | error e => rw [hm] at h; cases h
      | ok tl => rw [hm] at h; cases h; rw [ih tl hm]; rfl
  have hpe := hcol mp polar hp
  have hve := hcol mv volc hv
  have hh : cfg.ballistic_hop_effcy ≠ 0 := hhop.ne'
  -- polar and volcanic columns after the first switch
  obtain ⟨pol', vol', hstep, hgetp, hlenp, hlenv⟩ : ∃ pol' vol' : List K,
      volcShare cfg polar volc = .ok (pol', vol') ∧
      (∀ (i : Nat) a b, mp[i]? = some a → mv[i]? = some b → ∃ p v, pol'[i]? = some p ∧ vol'[i]? = some v ∧
        p * area * cfg.ice_density = cfg.ballistic_hop_effcy * (if cfg.use_volc_dep_effcy then a else a + b) ∧
        v * area * cfg.ice_density = (if cfg.use_volc_dep_effcy then b * cfg.volc_dep_effcy else 0)) ∧
      pol'.length = mp.length ∧ vol'.length = mp.length := by
    by_cases hu : cfg.use_volc_dep_effcy = true
    · refine ⟨polar, volc.map (fun v => v * (cfg.volc_dep_effcy / cfg.ballistic_hop_effcy)), ?_, ?_, ?_, ?_⟩
      · unfold volcShare; rw [if_pos hu, if_neg hh]
      · intro i a b h1 h2
        refine ⟨a * cfg.ballistic_hop_effcy / cfg.ice_density / area,
          b * cfg.ballistic_hop_effcy / cfg.ice_density / area *
            (cfg.volc_dep_effcy / cfg.ballistic_hop_effcy), ?_, ?_, ?_, ?_⟩
        · rw [hpe, List.getElem?_map, h1]; rfl
        · rw [hve, List.map_map, List.getElem?_map, h2]; rfl
        · rw [if_pos hu]; field_simp
        · rw [if_pos hu]; field_simp
      · rw [hpe]; simp
      · rw [hve]; simp [hlen]
    · refine ⟨List.zipWith (· + ·) polar volc, volc.map (fun v => v * 0), ?_, ?_, ?_, ?_⟩
      · unfold volcShare; rw [if_neg hu]
      · intro i a b h1 h2
        have e1 : polar[i]? = some (a * cfg.ballistic_hop_effcy / cfg.ice_density / area) := by
          rw [hpe, List.getElem?_map, h1]; rfl
        have e2 : volc[i]? = some (b * cfg.ballistic_hop_effcy / cfg.ice_density / area) := by
          rw [hve, List.getElem?_map, h2]; rfl
        refine ⟨_, 0, zipWith_get _ _ _ i _ _ e1 e2, ?_, ?_, ?_⟩
        · rw [List.getElem?_map, e2]; simp
        · rw [if_neg hu]; field_simp
        · rw [if_neg hu]; ring
      · rw [hpe, hve]; simp [hlen]
      · rw [hve]; simp [hlen]
  -- the rows after the second switch
  obtain ⟨rows0, hrows, hrlen, hrget⟩ : ∃ rows0 : List (List K),
      trapRows cfg table pol' = .ok rows0 ∧
      rows0.length = mp.length ∧
      ∀ (i j : Nat) p n, pol'[i]? = some p → cfg.coldtrap_names[j]? = some n →
        ∃ row hop, rows0[i]? = some row ∧ row.length = cfg.coldtrap_names.length ∧
          (if cfg.ballistic_hop_moores then PyDict.get table n = .ok hop
            else hop = cfg.ballistic_hop_effcy) ∧
          row[j]? = some (hop / cfg.ballistic_hop_effcy * p) := by
    by_cases hm : cfg.ballistic_hop_moores = true
    · obtain ⟨bh, hb, hbl, hbg⟩ := mapM_ok (fun n => PyDict.get table n) cfg.coldtrap_names (htab hm)
      refine ⟨pol'.map (fun p => bh.map (fun b => b / cfg.ballistic_hop_effcy * p)), ?_, ?_, ?_⟩
      · unfold trapRows; rw [if_pos hm]; unfold hopColdtraps; rw [hb]; rfl
      · simp [hlenp]
      · intro i j p n h1 h2
        obtain ⟨hop, hh1, hh2⟩ := hbg j n h2
        refine ⟨bh.map (fun b => b / cfg.ballistic_hop_effcy * p), hop, ?_, ?_, ?_, ?_⟩
        · rw [List.getElem?_map, h1]; rfl
        · simp [hbl]
        · rw [if_pos hm]; exact hh2
        · rw [List.getElem?_map, hh1]; rfl
    · refine ⟨pol'.map (fun p => List.replicate cfg.coldtrap_names.length p), ?_, ?_, ?_⟩
      · unfold trapRows; rw [if_neg hm]
      · simp [hlenp]
      · intro i j p n h1 h2
        refine ⟨List.replicate cfg.coldtrap_names.length p, cfg.ballistic_hop_effcy, ?_, ?_, ?_, ?_⟩
        · rw [List.getElem?_map, h1]; rfl
        · simp
        · rw [if_neg hm]
        · have hj : j < cfg.coldtrap_names.length := (List.getElem?_eq_some_iff.1 h2).1
          rw [List.getElem?_replicate, if_pos hj, div_self hh, one_mul]
  refine ⟨List.zipWith (fun row v => row.map (fun p => p + v)) rows0 vol', ?_, ?_, ?_⟩
  · unfold iceColsTime
    rw [hstep]
    simp only [bind, Except.bind]
    rw [hrows]
  · simp [hrlen, hlenv]
  · intro i j a b n h1 h2 h3
    obtain ⟨p, v, hp1, hv1, hpm, hvm⟩ := hgetp i a b h1 h2
    obtain ⟨row, hop, hr1, hr2, hr3, hr4⟩ := hrget i j p n hp1 h3
    refine ⟨row.map (fun p => p + v), hop / cfg.ballistic_hop_effcy * p + v, hop, _,
      zipWith_get _ _ _ i _ _ hr1 hv1, by simp [hr2], ?_, hr3, rfl, ?_, ?_⟩
    · rw [List.getElem?_map, hr4]; rfl
    · have e : (hop / cfg.ballistic_hop_effcy * p + v) * area * cfg.ice_density =
          hop / cfg.ballistic_hop_effcy * (p * area * cfg.ice_density) +
            v * area * cfg.ice_density := by ring
      rw [e, hpm, hvm]
      by_cases hu : cfg.use_volc_dep_effcy = true
      · simp only [hu, if_true]; field_simp
      · simp only [hu]; field_simp; simp; ring
    · intro ha0 hb0 hh0 hv0
      have hpos : 0 < area * cfg.ice_density := mul_pos h0 hd
      have hp0 : 0 ≤ p := by
        by_contra hc
        have h5 : p * (area * cfg.ice_density) < 0 := mul_neg_of_neg_of_pos (not_le.1 hc) hpos
        rw [← mul_assoc, hpm] at h5
        have : 0 ≤ cfg.ballistic_hop_effcy * (if cfg.use_volc_dep_effcy then a else a + b) := by
          apply mul_nonneg hhop.le; split_ifs <;> linarith
        linarith
      have hv1 : 0 ≤ v := by
        by_contra hc
        have h5 : v * (area * cfg.ice_density) < 0 := mul_neg_of_neg_of_pos (not_le.1 hc) hpos
        rw [← mul_assoc, hvm] at h5
        have : 0 ≤ (if cfg.use_volc_dep_effcy then b * cfg.volc_dep_effcy else 0) := by
          split_ifs
          · exact mul_nonneg hb0 hv0
          · exact le_refl _
        linarith
      have : 0 ≤ hop / cfg.ballistic_hop_effcy * p :=
        mul_nonneg (div_nonneg hh0 hhop.le) hp0
      linarith

/-- **C44** a trap missing from the hop table stops the run. -/
theorem C44_missing_trap_raises (cfg : ColsCfg K) (table : PyDict K) (polar volc : List K) (n : String)
    (hm : cfg.ballistic_hop_moores = true) (hh : cfg.ballistic_hop_effcy ≠ 0)
    (hn : cfg.coldtrap_names = [n]) (ht : PyDict.get table n = .error .keyError) :
    iceColsTime cfg table polar volc = .error .keyError := by
  have hb : hopColdtraps table cfg.coldtrap_names = .error .keyError := by
    unfold hopColdtraps; rw [hn, List.mapM_cons, ht]; rfl
  have hr : ∀ p, trapRows cfg table p = .error .keyError := by
    intro p; unfold trapRows; rw [if_pos hm, hb]; rfl
  unfold iceColsTime volcShare
  by_cases hu : cfg.use_volc_dep_effcy = true
  · rw [if_pos hu, if_neg hh]; simp only [bind, Except.bind]; rw [hr]
  · rw [if_neg hu]; simp only [bind, Except.bind]; rw [hr]

/-- **C44** a zero hop efficiency with the volcanic deposition efficiency on divides by
zero. -/
theorem C44_zero_hop_raises (cfg : ColsCfg K) (table : PyDict K) (polar volc : List K)
    (hu : cfg.use_volc_dep_effcy = true) (hh : cfg.ballistic_hop_effcy = 0) :
    iceColsTime cfg table polar volc = .error .zeroDivisionError := by
  unfold iceColsTime volcShare
  rw [if_pos hu, if_pos hh]; rfl

/-- Two traps, two times, both switches on. -/
example : iceColsTime (⟨⟨"H2O", 1, 1, 1 / 10, 1⟩, true, 1 / 5, true, ["A", "B"]⟩ : ColsCfg ℚ)
    [("A", 1 / 10), ("B", 3 / 10)] [1, 2] [10, 0] = .ok [[21, 23], [2, 6]] := by decide +kernel

end MoonPIES
