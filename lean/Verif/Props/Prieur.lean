import Verif.Model.Scaling
import Verif.Spec.Prieur
import Verif.Lemmas.Linspace
import Verif.Lemmas.Interp
import Verif.Lemmas.Except
import Mathlib.Analysis.Convex.SpecificFunctions.Pow

/-!
# C40: impactor lengths of small craters by inverse interpolation
-/

namespace MoonPIES

open Real

/-- The forward law is a power law in the length. -/
theorem prieurDiam_power (v rhoI rhoT g L : ℝ) (hv : 0 < v) (hi : 0 < rhoI) (hr : 0 < rhoT)
    (hg : 0 < g) (hL : 0 < L) :
    prieurDiam v rhoI rhoT g L =
      1.6 * (1.61 * g / v ^ 2) ^ (-0.22 : ℝ) * (rhoI / rhoT * (π / 6)) ^ (1 / 3 : ℝ) *
        L ^ (0.78 : ℝ) := by
  unfold prieurDiam diam2vol
  simp only []
  have e1 : (1.61 * g * L / v ^ 2) ^ (-0.22 : ℝ) =
      (1.61 * g / v ^ 2) ^ (-0.22 : ℝ) * L ^ (-0.22 : ℝ) := by
    rw [← mul_rpow (by positivity) hL.le]; congr 1; field_simp
  have e2 : (rhoT / (rhoI * (4 / 3 * π * (L / 2) ^ 3))) ^ (1 / 3 : ℝ) =
      ((rhoI / rhoT * (π / 6)) ^ (1 / 3 : ℝ))⁻¹ * L⁻¹ := by
    have e : rhoT / (rhoI * (4 / 3 * π * (L / 2) ^ 3)) = (rhoI / rhoT * (π / 6))⁻¹ * (L⁻¹) ^ (3 : ℕ) := by
      field_simp; norm_num
    rw [e, mul_rpow (by positivity) (by positivity), inv_rpow (by positivity),
      ← rpow_natCast, ← rpow_mul (by positivity)]
    norm_num
  have e3 : L ^ (0.78 : ℝ) = L ^ (-0.22 : ℝ) * L := by
    have : (0.78 : ℝ) = -0.22 + 1 := by norm_num
    rw [this, rpow_add hL, rpow_one]
  rw [e1, e2, e3]
  have hne : (rhoI / rhoT * (π / 6)) ^ (1 / 3 : ℝ) ≠ 0 := by positivity
  field_simp

/-- The forward law is increasing. -/
theorem prieurDiam_lt (v rhoI rhoT g L L' : ℝ) (hv : 0 < v) (hi : 0 < rhoI)
    (hr : 0 < rhoT) (hg : 0 < g) (hL : 0 < L) (hLL : L < L') :
    prieurDiam v rhoI rhoT g L < prieurDiam v rhoI rhoT g L' := by
  rw [prieurDiam_power v rhoI rhoT g L hv hi hr hg hL,
    prieurDiam_power v rhoI rhoT g L' hv hi hr hg (hL.trans hLL)]
  exact mul_lt_mul_of_pos_left (rpow_lt_rpow hL.le hLL (by norm_num)) (by positivity)

theorem prieurDiam_pos (v rhoI rhoT g L : ℝ) (hv : 0 < v) (hi : 0 < rhoI)
    (hr : 0 < rhoT) (hg : 0 < g) (hL : 0 < L) : 0 < prieurDiam v rhoI rhoT g L := by
  rw [prieurDiam_power v rhoI rhoT g L hv hi hr hg hL]
  have := pi_pos
  positivity

/-- The law and the formula of the code. -/
theorem prieurLaw_iff (v rhoI rhoT g L D : ℝ) (hi : 0 < rhoI) (hr : 0 < rhoT) (hL : 0 < L) :
    Spec.PrieurLaw v rhoI rhoT g L D ↔ D = prieurDiam v rhoI rhoT g L := by
  have hp := pi_pos
  unfold Spec.PrieurLaw prieurDiam diam2vol
  simp only [exists_eq_left]
  have e : rhoI * (4 / 3 * π * (L / 2) ^ 3) = rhoI * (π * L ^ 3 / 6) := by ring
  rw [e, eq_div_iff (by positivity)]

theorem prieurDiam_le (v rhoI rhoT g L L' : ℝ) (hv : 0 < v) (hi : 0 < rhoI)
    (hr : 0 < rhoT) (hg : 0 < g) (hL : 0 < L) (hLL : L ≤ L') :
    prieurDiam v rhoI rhoT g L ≤ prieurDiam v rhoI rhoT g L' := by
  rcases hLL.lt_or_eq with h | h
  · exact (prieurDiam_lt v rhoI rhoT g L L' hv hi hr hg hL h).le
  · rw [h]

/-- **C40** every impactor makes one crater by the law, of positive diameter, a longer impactor
makes a strictly larger one, and every positive diameter is that of exactly one impactor: the law
can be inverted. -/
theorem C40_law_increasing (v rhoI rhoT g : ℝ) (hv : 0 < v) (hi : 0 < rhoI) (hr : 0 < rhoT)
    (hg : 0 < g) :
    (∀ L, 0 < L → ∃! D, Spec.PrieurLaw v rhoI rhoT g L D) ∧
    (∀ L L' D D', 0 < L → L < L' → Spec.PrieurLaw v rhoI rhoT g L D →
      Spec.PrieurLaw v rhoI rhoT g L' D' → 0 < D ∧ D < D') ∧
    ∀ D, 0 < D → ∃! L, 0 < L ∧ Spec.PrieurLaw v rhoI rhoT g L D := by
  have hp := pi_pos
  refine ⟨fun L hL => ⟨prieurDiam v rhoI rhoT g L,
    (prieurLaw_iff _ _ _ _ _ _ hi hr hL).2 rfl,
    fun D h => (prieurLaw_iff _ _ _ _ _ _ hi hr hL).1 h⟩, ?_, ?_⟩
  · intro L L' D D' hL hLL h h'
    rw [prieurLaw_iff _ _ _ _ _ _ hi hr hL] at h
    rw [prieurLaw_iff _ _ _ _ _ _ hi hr (hL.trans hLL)] at h'
    rw [h, h']
    exact ⟨prieurDiam_pos _ _ _ _ _ hv hi hr hg hL, prieurDiam_lt _ _ _ _ _ _ hv hi hr hg hL hLL⟩
  · intro D hD
    obtain ⟨C, hC0, hC⟩ : ∃ C, 0 < C ∧ ∀ L, 0 < L →
        prieurDiam v rhoI rhoT g L = C * L ^ (0.78 : ℝ) :=
      ⟨_, by positivity, fun L hL => prieurDiam_power v rhoI rhoT g L hv hi hr hg hL⟩
    have hL0 : 0 < (D / C) ^ (1 / 0.78 : ℝ) := by positivity
    have hD0 : D = prieurDiam v rhoI rhoT g ((D / C) ^ (1 / 0.78 : ℝ)) := by
      rw [hC _ hL0, ← rpow_mul (by positivity)]
      have e : (1 / 0.78 : ℝ) * 0.78 = 1 := by norm_num
      rw [e, rpow_one]; field_simp
    refine ⟨(D / C) ^ (1 / 0.78 : ℝ), ⟨hL0, (prieurLaw_iff _ _ _ _ _ _ hi hr hL0).2 hD0⟩, ?_⟩
    rintro L ⟨hL, h⟩
    rw [prieurLaw_iff _ _ _ _ _ _ hi hr hL] at h
    rcases lt_trichotomy L ((D / C) ^ (1 / 0.78 : ℝ)) with hlt | heq | hlt
    · have := prieurDiam_lt _ _ _ _ _ _ hv hi hr hg hL hlt
      rw [← h, ← hD0] at this
      exact absurd this (lt_irrefl _)
    · exact heq
    · have := prieurDiam_lt _ _ _ _ _ _ hv hi hr hg hL0 hlt
      rw [← h, ← hD0] at this
      exact absurd this (lt_irrefl _)

/-- The table and its properties. -/
theorem prieurTable_ok (v rhoI rhoT g first last : ℝ) (hv : 0 < v) (hi : 0 < rhoI)
    (hr : 0 < rhoT) (hg : 0 < g) (hf : 0 < first) (hl : first ≤ last) :
    ∃ table, prieurTable v rhoI rhoT g first last = .ok table ∧ KnotsAsc table ∧
      KnotsMono table ∧ (∀ p ∈ table, first / 100 ≤ p.2 ∧ p.2 ≤ last) ∧
      table.length = 1000 ∧
      ∀ i : Nat, i < 1000 → table[i]? = some
        (prieurDiam v rhoI rhoT g (first / 100 + i * ((last - first / 100) / 999)),
          first / 100 + i * ((last - first / 100) / 999)) := by
  have hab : first / 100 < last := by linarith
  have hls := linspace_eq (first / 100) last 1000 (by norm_num)
  obtain ⟨ls, hls'⟩ : ∃ ls, linspace (first / 100) last ((1000 : Nat) : Int) = .ok ls := ⟨_, hls⟩
  obtain ⟨hlen, hget⟩ := linspace_get _ _ 1000 (by norm_num) ls hls'
  have hasc := linspace_asc _ _ 1000 (by norm_num) hab ls hls'
  have hbd := linspace_bounds _ _ 1000 (by norm_num) hab.le ls hls'
  refine ⟨ls.map (fun L => (prieurDiam v rhoI rhoT g L, L)), ?_, ?_, ?_, ?_, ?_, ?_⟩
  · unfold prieurTable
    have : ((1000 : Nat) : Int) = 1000 := rfl
    rw [this] at hls'
    rw [hls']; rfl
  · unfold KnotsAsc
    rw [List.pairwise_map]
    refine hasc.imp_of_mem ?_
    intro a b ha _ hlt
    exact prieurDiam_lt v rhoI rhoT g a b hv hi hr hg
      (lt_of_lt_of_le (by linarith) (hbd a ha).1) hlt
  · unfold KnotsMono
    rw [List.pairwise_map]
    exact hasc.imp (fun h => h.le)
  · intro p hp
    rw [List.mem_map] at hp
    obtain ⟨L, hL, rfl⟩ := hp
    exact hbd L hL
  · simp [hlen]
  · intro i hi
    rw [List.getElem?_map, hget i hi]
    norm_num

/-- What `diam2len_prieur` returns: the interpolated values of one table. -/
theorem prieur_core (ts : List ℝ) (first last v rhoI rhoT g : ℝ) (hv : 0 < v) (hi : 0 < rhoI)
    (hr : 0 < rhoT) (hg : 0 < g) (hasc : ts.Pairwise (· ≤ ·)) (hfirst : ts.head? = some first)
    (hlast : ts.getLast? = some last) (hf : 0 < first) :
    first ≤ last ∧ ∃ out table, diam2lenPrieur ts v rhoI rhoT g = .ok out ∧
      prieurTable v rhoI rhoT g first last = .ok table ∧ out.length = ts.length ∧
      ∀ (i : Nat) t L, ts[i]? = some t → out[i]? = some L → npInterp t table = some L := by
  cases ts with
  | nil => simp at hfirst
  | cons t0 tl =>
  simp only [List.head?_cons, Option.some.injEq] at hfirst
  subst hfirst
  have hl : t0 ≤ last := by
    rcases List.mem_cons.1 (List.mem_of_getLast? hlast) with rfl | h
    · exact le_refl _
    · exact (List.pairwise_cons.1 hasc).1 last h
  have hlg : pyGet (t0 :: tl) ((t0 :: tl).length - 1) = .ok last := by
    rw [List.getLast?_eq_getElem?] at hlast
    unfold pyGet
    rw [hlast]
  obtain ⟨table, htab, hka, hkm, hbd, hlen, hget⟩ :=
    prieurTable_ok v rhoI rhoT g t0 last hv hi hr hg hf hl
  have hsome : ∀ t : ℝ, ∃ y, npInterp t table = some y := by
    intro t
    cases table with
    | nil => simp at hlen
    | cons p rest => exact ⟨_, rfl⟩
  obtain ⟨out, hout, holen, hel⟩ := mapM_ok (fun t => match npInterp t table with
    | some y => Except.ok y
    | none => Except.error PyErr.valueError) (t0 :: tl)
    (fun t _ => by obtain ⟨y, hy⟩ := hsome t; exact ⟨y, by simp [hy]⟩)
  refine ⟨hl, out, table, ?_, htab, holen, ?_⟩
  · unfold diam2lenPrieur
    have h0 : pyGet (t0 :: tl) 0 = .ok t0 := rfl
    simp only [hlg, h0, bind, Except.bind, htab]
    exact hout
  · intro i t L h1 h2
    obtain ⟨b, hb1, hb2⟩ := hel i t h1
    rw [h2, Option.some.injEq] at hb1
    subst hb1
    obtain ⟨y, hy⟩ := hsome t
    simp only [hy, Except.ok.injEq] at hb2
    rw [hy, hb2]

/-- The chord of the law lies below it, so interpolated lengths are not too short. -/
theorem prieur_chord (v rhoI rhoT g a b x : ℝ) (hv : 0 < v) (hi : 0 < rhoI) (hr : 0 < rhoT)
    (hg : 0 < g) (ha : 0 < a) (hax : a ≤ x) (hxb : x < b) :
    x ≤ a + (b - a) / (prieurDiam v rhoI rhoT g b - prieurDiam v rhoI rhoT g a) *
      (prieurDiam v rhoI rhoT g x - prieurDiam v rhoI rhoT g a) := by
  have hx : 0 < x := ha.trans_le hax
  have hab : a < b := hax.trans_lt hxb
  have hFab := prieurDiam_lt v rhoI rhoT g a b hv hi hr hg ha hab
  have hp := pi_pos
  obtain ⟨C, hC0, hC⟩ : ∃ C, 0 < C ∧ ∀ L, 0 < L → prieurDiam v rhoI rhoT g L = C * L ^ (0.78 : ℝ) :=
    ⟨_, by positivity, fun L hL => prieurDiam_power v rhoI rhoT g L hv hi hr hg hL⟩
  have hba0 : b - a ≠ 0 := by linarith
  obtain ⟨w, hw⟩ : ∃ w, w = (b - x) / (b - a) := ⟨_, rfl⟩
  obtain ⟨w', hw'⟩ : ∃ w', w' = (x - a) / (b - a) := ⟨_, rfl⟩
  have hw0 : 0 ≤ w := hw ▸ div_nonneg (by linarith) (by linarith)
  have hw'0 : 0 ≤ w' := hw' ▸ div_nonneg (by linarith) (by linarith)
  have hww : w + w' = 1 := by rw [hw, hw']; field_simp; ring
  have hcc : ConcaveOn ℝ (Set.Ici 0) (fun x : ℝ => x ^ (0.78 : ℝ)) :=
    Real.concaveOn_rpow (by norm_num) (by norm_num)
  have hconc := hcc.2 (Set.mem_Ici.2 ha.le) (Set.mem_Ici.2 (hx.le.trans hxb.le)) hw0 hw'0 hww
  rw [hw, hw'] at hconc
  have hba : 0 < b - a := by linarith
  have e : ((b - x) / (b - a)) • a + ((x - a) / (b - a)) • b = x := by
    simp only [smul_eq_mul]; field_simp; ring
  rw [e] at hconc
  simp only [smul_eq_mul] at hconc
  have h1 : (b - x) / (b - a) * prieurDiam v rhoI rhoT g a +
      (x - a) / (b - a) * prieurDiam v rhoI rhoT g b ≤ prieurDiam v rhoI rhoT g x := by
    rw [hC a ha, hC b (ha.trans hab), hC x hx]
    calc _ = C * ((b - x) / (b - a) * a ^ (0.78 : ℝ) + (x - a) / (b - a) * b ^ (0.78 : ℝ)) := by ring
      _ ≤ _ := mul_le_mul_of_nonneg_left hconc hC0.le
  obtain ⟨A, hA⟩ : ∃ A, A = prieurDiam v rhoI rhoT g a := ⟨_, rfl⟩
  obtain ⟨B, hB⟩ : ∃ B, B = prieurDiam v rhoI rhoT g b := ⟨_, rfl⟩
  obtain ⟨X, hX⟩ : ∃ X, X = prieurDiam v rhoI rhoT g x := ⟨_, rfl⟩
  rw [← hA, ← hB, ← hX]
  rw [← hA, ← hB, ← hX] at h1
  rw [← hA, ← hB] at hFab
  have hBA : 0 < B - A := by linarith
  have h2 : (x - a) * (B - A) ≤ (X - A) * (b - a) := by
    have e1 : (b - x) / (b - a) * A + (x - a) / (b - a) * B =
        A + (x - a) * (B - A) / (b - a) := by field_simp; ring
    rw [e1] at h1
    have h3 : (x - a) * (B - A) / (b - a) ≤ X - A := by linarith
    exact (div_le_iff₀ hba).1 h3
  have h3 : x - a ≤ (X - A) * (b - a) / (B - A) := (le_div_iff₀ hBA).2 h2
  have e2 : (b - a) / (B - A) * (X - A) = (X - A) * (b - a) / (B - A) := by ring
  rw [e2]; linarith

/-- Interpolation in the table at the crater of length `L₀`. -/
theorem prieur_cell (first last v rhoI rhoT g : ℝ) (hv : 0 < v) (hi : 0 < rhoI) (hr : 0 < rhoT)
    (hg : 0 < g) (hf : 0 < first) (hl : first ≤ last) (table : List (ℝ × ℝ))
    (htab : prieurTable v rhoI rhoT g first last = .ok table) (L L₀ : ℝ) (h0 : first / 100 ≤ L₀)
    (h1 : L₀ ≤ last) (h : npInterp (prieurDiam v rhoI rhoT g L₀) table = some L) :
    L₀ ≤ L ∧ L < L₀ + (last - first / 100) / 999 ∧
      ∀ k : Nat, k < 1000 → L₀ = Spec.tabLength (first / 100) last k → L = L₀ := by
  obtain ⟨table', htab', hka, hkm, hbd, hlen, hget⟩ :=
    prieurTable_ok v rhoI rhoT g first last hv hi hr hg hf hl
  rw [htab, Except.ok.injEq] at htab'
  subst htab'
  have hh : 0 < (last - first / 100) / 999 := by
    apply div_pos _ (by norm_num); linarith
  have hknot : ∀ k : Nat, k < 1000 → npInterp (prieurDiam v rhoI rhoT g
      (first / 100 + k * ((last - first / 100) / 999))) table =
      some (first / 100 + k * ((last - first / 100) / 999)) :=
    fun k hk => npInterp_knot table hka _ (List.mem_of_getElem? (hget k hk))
  obtain ⟨s, hs⟩ : ∃ s, s = (last - first / 100) / 999 := ⟨_, rfl⟩
  rw [← hs] at hh hget hknot ⊢
  have hlast' : first / 100 + (999 : ℕ) * s = last := by rw [hs]; push_cast; ring
  have hexact : ∀ k : Nat, k < 1000 → L₀ = Spec.tabLength (first / 100) last k → L = L₀ := by
    intro k hk e
    unfold Spec.tabLength at e
    rw [← hs] at e
    have := hknot k hk
    rw [← e, h, Option.some.injEq] at this
    exact this
  rcases h1.lt_or_eq with hlt | heq
  · have hq0 : 0 ≤ (L₀ - first / 100) / s := div_nonneg (by linarith) hh.le
    obtain ⟨k, hk⟩ : ∃ k, k = ⌊(L₀ - first / 100) / s⌋₊ := ⟨_, rfl⟩
    have hk1 : (k : ℝ) ≤ (L₀ - first / 100) / s := hk ▸ Nat.floor_le hq0
    have hk2 : (L₀ - first / 100) / s < k + 1 := hk ▸ Nat.lt_floor_add_one _
    rw [le_div_iff₀ hh] at hk1
    rw [div_lt_iff₀ hh] at hk2
    have hk999 : k < 999 := by
      by_contra hc
      have : (999 : ℝ) ≤ k := by exact_mod_cast not_lt.1 hc
      have := mul_le_mul_of_nonneg_right this hh.le
      push_cast at hlast'
      linarith
    have hks : 0 ≤ (k : ℝ) * s := by positivity
    have hkn := hget k (by omega)
    have hkn1 := hget (k + 1) (by omega)
    have hpos : 0 < first / 100 + k * s := by
      have : 0 < first / 100 := by positivity
      linarith
    have hc1 : prieurDiam v rhoI rhoT g (first / 100 + k * s) ≤ prieurDiam v rhoI rhoT g L₀ :=
      prieurDiam_le _ _ _ _ _ _ hv hi hr hg hpos (by linarith)
    have hc2 : prieurDiam v rhoI rhoT g L₀ <
        prieurDiam v rhoI rhoT g (first / 100 + (k + 1 : ℕ) * s) := by
      apply prieurDiam_lt v rhoI rhoT g _ _ hv hi hr hg (hpos.trans_le (by linarith))
      push_cast; linarith
    have hcell := npInterp_cell _ table hka k _ _ hkn hkn1 hc1 hc2
    rw [h, Option.some.injEq] at hcell
    have hch := prieur_chord v rhoI rhoT g (first / 100 + k * s) (first / 100 + (k + 1 : ℕ) * s)
      L₀ hv hi hr hg hpos (by linarith) (by push_cast; linarith)
    refine ⟨hcell ▸ hch, ?_, hexact⟩
    obtain ⟨w, w0, w1, e⟩ := seg_between _ _ (first / 100 + k * s) _ (first / 100 + (k + 1 : ℕ) * s)
      hc1 hc2
    rw [e] at hcell
    push_cast at hcell
    have hw1 : w * s < s := by nlinarith
    have hL : L = first / 100 + k * s + w * s := by rw [hcell]; ring
    linarith
  · have h9 := hexact 999 (by norm_num) (by
      unfold Spec.tabLength; rw [← hs, heq]; exact hlast'.symm)
    rw [h9]
    exact ⟨le_refl _, by linarith, fun _ _ _ => rfl⟩

theorem interpFrom_above (x : ℝ) (rest : List (ℝ × ℝ)) : ∀ x0 f0 : ℝ,
    (∀ p ∈ rest, p.1 ≤ x) → interpFrom x x0 f0 rest = (rest.getLast?.map (·.2)).getD f0 := by
  induction rest with
  | nil => intro x0 f0 _; rfl
  | cons p rest ih =>
    obtain ⟨x1, f1⟩ := p
    intro x0 f0 h
    unfold interpFrom
    rw [if_neg (not_lt.2 (h (x1, f1) (by simp))), ih x1 f1 (fun p hp => h p (by simp [hp]))]
    cases rest with
    | nil => rfl
    | cons q r =>
      rw [List.getLast?_cons_cons, List.getLast?_eq_some_getLast (List.cons_ne_nil q r)]; rfl

/-- Beyond the table the end values are returned. -/
theorem prieur_outside (first last v rhoI rhoT g : ℝ) (hv : 0 < v) (hi : 0 < rhoI) (hr : 0 < rhoT)
    (hg : 0 < g) (hf : 0 < first) (hl : first ≤ last) (table : List (ℝ × ℝ))
    (htab : prieurTable v rhoI rhoT g first last = .ok table) (L L₀ : ℝ) (hL0 : 0 < L₀)
    (h : npInterp (prieurDiam v rhoI rhoT g L₀) table = some L) :
    (L₀ ≤ first / 100 → L = first / 100) ∧ (last ≤ L₀ → L = last) := by
  obtain ⟨table', htab', hka, hkm, hbd, hlen, hget⟩ :=
    prieurTable_ok v rhoI rhoT g first last hv hi hr hg hf hl
  rw [htab, Except.ok.injEq] at htab'
  subst htab'
  have hf0 : 0 < first / 100 := by positivity
  have hlp : 0 < last := hf.trans_le hl
  constructor
  · intro hle
    rcases hle.lt_or_eq with hlt | heq
    · cases table with
      | nil => simp at hlen
      | cons p rest =>
        have h0 := hget 0 (by norm_num)
        simp only [List.getElem?_cons_zero, Option.some.injEq, Nat.cast_zero, zero_mul,
          add_zero] at h0
        subst h0
        simp only [npInterp, Option.some.injEq] at h
        rw [if_pos (prieurDiam_lt v rhoI rhoT g _ _ hv hi hr hg hL0 hlt)] at h
        exact h.symm
    · have h0 := npInterp_knot table hka _ (List.mem_of_getElem? (hget 0 (by norm_num)))
      simp only [Nat.cast_zero, zero_mul, add_zero] at h0
      rw [← heq, h, Option.some.injEq] at h0
      exact h0.trans heq
  · intro hle
    have hall : ∀ p ∈ table, p.1 ≤ prieurDiam v rhoI rhoT g L₀ := by
      intro p hp
      obtain ⟨i, hi'⟩ := List.getElem?_of_mem hp
      have hil : i < 1000 := by rw [← hlen]; exact (List.getElem?_eq_some_iff.1 hi').1
      have hb := hbd p hp
      rw [hget i hil, Option.some.injEq] at hi'
      subst hi'
      exact prieurDiam_le _ _ _ _ _ _ hv hi hr hg (hf0.trans_le hb.1) (hb.2.trans hle)
    have h9 := hget 999 (by norm_num)
    have hlast' : first / 100 + (999 : ℕ) * ((last - first / 100) / 999) = last := by
      push_cast; ring
    rw [hlast'] at h9
    cases table with
    | nil => simp at hlen
    | cons p rest =>
      obtain ⟨x0, f0⟩ := p
      simp only [npInterp, Option.some.injEq] at h
      rw [if_neg (not_lt.2 (hall (x0, f0) (by simp))),
        interpFrom_above _ rest x0 f0 (fun p hp => hall p (by simp [hp]))] at h
      have hrl : rest.length = 999 := by simpa using hlen
      rw [List.getElem?_cons_succ] at h9
      rw [List.getLast?_eq_getElem?, hrl, h9] at h
      simpa using h.symm

/-- **C40** for each ascending tuple of positive transient diameters: no error, one length per
diameter, within `[first/100, last]` and non-decreasing in the diameter.  If `L₀` is the impactor
that makes the crater by the law, the length returned is the nearer end of the table when `L₀` is
outside it; otherwise it is not less than `L₀`, exceeds it by less than one step of the table, and
is exact at the tabulated lengths. -/
theorem C40_prieur (ts : List ℝ) (first last v rhoI rhoT g : ℝ) (hv : 0 < v) (hi : 0 < rhoI)
    (hr : 0 < rhoT) (hg : 0 < g) (hasc : ts.Pairwise (· ≤ ·)) (hfirst : ts.head? = some first)
    (hlast : ts.getLast? = some last) (hf : 0 < first) :
    ∃ out, diam2lenPrieur ts v rhoI rhoT g = .ok out ∧ out.length = ts.length ∧
      (∀ L ∈ out, first / 100 ≤ L ∧ L ≤ last) ∧
      (∀ (i j : Nat) t t' L L', ts[i]? = some t → ts[j]? = some t' → out[i]? = some L →
        out[j]? = some L' → t ≤ t' → L ≤ L') ∧
      ∀ (i : Nat) t L L₀, ts[i]? = some t → out[i]? = some L → 0 < L₀ →
        Spec.PrieurLaw v rhoI rhoT g L₀ t →
        (L₀ ≤ first / 100 → L = first / 100) ∧ (last ≤ L₀ → L = last) ∧
        (first / 100 ≤ L₀ → L₀ ≤ last → L₀ ≤ L ∧ L < L₀ + (last - first / 100) / 999 ∧
          ∀ k : Nat, k < 1000 → L₀ = Spec.tabLength (first / 100) last k → L = L₀) := by
  obtain ⟨hl, out, table, hout, htab, holen, hval⟩ :=
    prieur_core ts first last v rhoI rhoT g hv hi hr hg hasc hfirst hlast hf
  obtain ⟨table', htab', hka, hkm, hbd, hlen, hget⟩ :=
    prieurTable_ok v rhoI rhoT g first last hv hi hr hg hf hl
  rw [htab, Except.ok.injEq] at htab'
  subst htab'
  refine ⟨out, hout, holen, ?_, ?_, ?_⟩
  · intro L hL
    obtain ⟨i, hi⟩ := List.getElem?_of_mem hL
    have hil : i < ts.length := by
      rw [← holen]; exact (List.getElem?_eq_some_iff.1 hi).1
    exact npInterp_between _ _ _ _ table (hval i _ L (List.getElem?_eq_getElem hil) hi) hbd
  · intro i j t t' L L' h1 h2 h3 h4 h
    exact npInterp_mono t t' L L' table h hkm (hval i t L h1 h3) (hval j t' L' h2 h4)
  · intro i t L L₀ h1 h2 hL0 hlaw
    rw [prieurLaw_iff _ _ _ _ _ _ hi hr hL0] at hlaw
    have hv' := hval i t L h1 h2
    rw [hlaw] at hv'
    obtain ⟨o1, o2⟩ := prieur_outside first last v rhoI rhoT g hv hi hr hg hf hl table htab L L₀
      hL0 hv'
    exact ⟨o1, o2, fun g1 g2 => prieur_cell first last v rhoI rhoT g hv hi hr hg hf hl table htab
      L L₀ g1 g2 hv'⟩

theorem interpFrom_scale (k x : ℝ) (hk : 0 < k) (rest : List (ℝ × ℝ)) : ∀ x0 f0 : ℝ,
    interpFrom (k * x) (k * x0) f0 (rest.map (fun p => (k * p.1, p.2))) =
      interpFrom x x0 f0 rest := by
  induction rest with
  | nil => intro x0 f0; rfl
  | cons p rest ih =>
    obtain ⟨x1, f1⟩ := p
    intro x0 f0
    simp only [List.map_cons, interpFrom]
    rw [ih]
    have e : (f1 - f0) / (k * x1 - k * x0) * (k * x - k * x0) =
        (f1 - f0) / (x1 - x0) * (x - x0) := by
      rw [← mul_sub, ← mul_sub]
      rcases eq_or_ne (x1 - x0) 0 with h0 | h0
      · rw [h0]; simp
      · field_simp
    rw [e]
    by_cases h : x < x1
    · rw [if_pos h, if_pos (by nlinarith)]
    · rw [if_neg h, if_neg (by nlinarith)]

theorem npInterp_scale (k x : ℝ) (hk : 0 < k) (l : List (ℝ × ℝ)) :
    npInterp (k * x) (l.map (fun p => (k * p.1, p.2))) = npInterp x l := by
  cases l with
  | nil => rfl
  | cons p rest =>
    obtain ⟨x0, f0⟩ := p
    simp only [List.map_cons, npInterp, interpFrom_scale k x hk]
    by_cases h : x < x0
    · rw [if_pos h, if_pos (by nlinarith)]
    · rw [if_neg h, if_neg (by nlinarith)]

/-- **C40** faster or denser impactors, lighter ground or weaker gravity: the same craters need
impactors that are not longer. -/
theorem C40_speed (ts : List ℝ) (first last v v' rhoI rhoI' rhoT rhoT' g g' : ℝ) (hv : 0 < v)
    (hvv : v ≤ v') (hi : 0 < rhoI) (hii : rhoI ≤ rhoI') (hr : 0 < rhoT') (hrr : rhoT' ≤ rhoT)
    (hg : 0 < g') (hgg : g' ≤ g) (hasc : ts.Pairwise (· ≤ ·)) (hfirst : ts.head? = some first)
    (hlast : ts.getLast? = some last) (hf : 0 < first) (out out' : List ℝ)
    (h : diam2lenPrieur ts v rhoI rhoT g = .ok out)
    (h' : diam2lenPrieur ts v' rhoI' rhoT' g' = .ok out') :
    ∀ (i : Nat) L L', out[i]? = some L → out'[i]? = some L' → L' ≤ L := by
  have hv' : 0 < v' := hv.trans_le hvv
  have hi' : 0 < rhoI' := hi.trans_le hii
  have hr0 : 0 < rhoT := hr.trans_le hrr
  have hg0 : 0 < g := hg.trans_le hgg
  have hp := pi_pos
  obtain ⟨hl, o1, table, ho1, htab, hlen, hval⟩ :=
    prieur_core ts first last v rhoI rhoT g hv hi hr0 hg0 hasc hfirst hlast hf
  obtain ⟨-, o2, table', ho2, htab', hlen', hval'⟩ :=
    prieur_core ts first last v' rhoI' rhoT' g' hv' hi' hr hg hasc hfirst hlast hf
  rw [h, Except.ok.injEq] at ho1
  rw [h', Except.ok.injEq] at ho2
  subst ho1 ho2
  obtain ⟨t1, ht1, -, hkm, -⟩ := prieurTable_ok v rhoI rhoT g first last hv hi hr0 hg0 hf hl
  rw [htab, Except.ok.injEq] at ht1
  subst ht1
  obtain ⟨A, hA⟩ : ∃ A, A = 1.6 * (1.61 * g / v ^ 2) ^ (-0.22 : ℝ) *
    (rhoI / rhoT * (π / 6)) ^ (1 / 3 : ℝ) := ⟨_, rfl⟩
  obtain ⟨A', hA'⟩ : ∃ A', A' = 1.6 * (1.61 * g' / v' ^ 2) ^ (-0.22 : ℝ) *
    (rhoI' / rhoT' * (π / 6)) ^ (1 / 3 : ℝ) := ⟨_, rfl⟩
  have hA0 : 0 < A := by rw [hA]; positivity
  have hAA : A ≤ A' := by
    rw [hA, hA']
    apply mul_le_mul _ _ (by positivity) (by positivity)
    · apply mul_le_mul_of_nonneg_left _ (by norm_num)
      apply rpow_le_rpow_of_nonpos (by positivity) _ (by norm_num)
      apply div_le_div₀ (by positivity) (by linarith) (by positivity)
      exact pow_le_pow_left₀ hv.le hvv 2
    · apply rpow_le_rpow (by positivity) _ (by norm_num)
      apply mul_le_mul_of_nonneg_right _ (by positivity)
      exact div_le_div₀ hi'.le hii hr hrr
  have hA'0 : 0 < A' := hA0.trans_le hAA
  have htt : table' = table.map (fun p => (A' / A * p.1, p.2)) := by
    unfold prieurTable at htab htab'
    cases hls : linspace (first / 100) last 1000 with
    | error e => rw [hls] at htab; cases htab
    | ok ls =>
      rw [hls] at htab htab'
      simp only [bind, Except.bind, Except.ok.injEq] at htab htab'
      subst htab htab'
      rw [List.map_map]
      apply List.map_congr_left
      intro L hL
      have hb := linspace_bounds (first / 100) last 1000 (by norm_num) (by linarith) ls hls L hL
      have hL0 : 0 < L := by
        have : 0 < first / 100 := by positivity
        linarith
      simp only [Function.comp, Prod.mk.injEq, and_true]
      rw [prieurDiam_power _ _ _ _ _ hv' hi' hr hg hL0, prieurDiam_power _ _ _ _ _ hv hi hr0 hg0 hL0,
        ← hA, ← hA']
      field_simp
  intro i L L' hL hL'
  have hil : i < ts.length := by rw [← hlen]; exact (List.getElem?_eq_some_iff.1 hL).1
  obtain ⟨t, ht⟩ : ∃ t, ts[i]? = some t := ⟨_, List.getElem?_eq_getElem hil⟩
  have ht0 : 0 < t := by
    cases ts with
    | nil => simp at hfirst
    | cons a r =>
      simp only [List.head?_cons, Option.some.injEq] at hfirst
      subst hfirst
      rcases List.mem_cons.1 (List.mem_of_getElem? ht) with e | e
      · rw [e]; exact hf
      · exact hf.trans_le ((List.pairwise_cons.1 hasc).1 t e)
  have e1 := hval i t L ht hL
  have e2 := hval' i t L' ht hL'
  have hk : 0 < A' / A := by positivity
  have e3 : t = A' / A * (t / (A' / A)) := by field_simp
  rw [htt, e3, npInterp_scale _ _ hk] at e2
  refine npInterp_mono _ _ L' L table ?_ hkm e2 e1
  apply div_le_self ht0.le
  rw [le_div_iff₀ hA0]; linarith

/-- **C40** an empty tuple is an error. -/
theorem C40_empty_raises (v rhoI rhoT g : ℝ) :
    diam2lenPrieur [] v rhoI rhoT g = .error .indexError := rfl

example : ∃ out, diam2lenPrieur [80, 800, 1200] 20000 1300 1500 1.62 = .ok out ∧
    out.length = 3 := by
  obtain ⟨out, h1, h2, -⟩ := C40_prieur [80, 800, 1200] 80 1200 20000 1300 1500 1.62 (by norm_num)
    (by norm_num) (by norm_num) (by norm_num) (by simp; norm_num) rfl rfl (by norm_num)
  exact ⟨out, h1, h2⟩

/-- The impactor of an 800 m crater exists, so the last part of `C40_prieur` says something. -/
example : ∃ L₀, 0 < L₀ ∧ Spec.PrieurLaw 20000 1300 1500 1.62 L₀ 800 :=
  ((C40_law_increasing 20000 1300 1500 1.62 (by norm_num) (by norm_num) (by norm_num)
    (by norm_num)).2.2 800 (by norm_num)).exists

end MoonPIES
