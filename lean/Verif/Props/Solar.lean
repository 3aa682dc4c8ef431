import Verif.Model.Ice
import Verif.Lemmas.Except
import Verif.Lemmas.Interp
import Verif.Props.IceThick
import Mathlib.Tactic.FieldSimp
import Mathlib.Tactic.Ring
import Mathlib.Tactic.Linarith
import Mathlib.Tactic.NormNum

/-!
# C47, C48: solar wind ice and overturn depth
-/

namespace MoonPIES

set_option linter.unusedSectionVars false

variable {K : Type} [Field K] [LinearOrder K] [IsStrictOrderedRing K]

/-- Spec: seconds in a 365 day year. -/
def yearSeconds : K := 31536000

/-- Spec: the published supply rates [kg/s], 2 g/s and 30 mg/s. -/
def RateOf (mode : String) (r : K) : Prop :=
  (mode.toLower = "benna" ∧ r * 1000 = 2) ∨ (mode.toLower = "lucey-hurley" ∧ r * 1000000 = 30)

theorem solarRate_of (mode : String) (r : K) (h : RateOf mode r) : solarRate mode = .ok r := by
  unfold solarRate
  rcases h with ⟨h, hr⟩ | ⟨h, hr⟩
  · rw [if_pos h]; congr 1; linarith
  · rw [if_neg (by rw [h]; decide), if_pos h]; congr 1; linarith

/-- **C47** switched off: zero at every time, whatever the mode. -/
theorem C47_off (cfg : SolarCfg K) (lum : List (K × K)) (time : List K)
    (h : cfg.solar_wind_ice = false) :
    solarWindIce cfg lum time = .ok (List.replicate time.length 0) := by
  unfold solarWindIce
  rw [if_neg (by rw [h]; decide)]
  simp

/-- **C47** an unknown mode is rejected. -/
theorem C47_unknown_mode (cfg : SolarCfg K) (lum : List (K × K)) (time : List K)
    (h : cfg.solar_wind_ice = true) (h1 : cfg.solar_wind_mode.toLower ≠ "benna")
    (h2 : cfg.solar_wind_mode.toLower ≠ "lucey-hurley") :
    solarWindIce cfg lum time = .error .valueError := by
  unfold solarWindIce solarWindMass solarRate
  rw [if_pos h, if_neg h1, if_neg h2]; rfl

/-- **C47** constant sun: every step delivers the rate times the seconds of a step. -/
theorem C47_constant_sun (cfg : SolarCfg K) (lum : List (K × K)) (time : List K) (r : K)
    (hr : RateOf cfg.solar_wind_mode r) (hf : cfg.faint_young_sun = false) :
    solarWindMass cfg lum time =
      .ok (List.replicate time.length (r * (yearSeconds * cfg.timestep))) := by
  unfold solarWindMass
  rw [solarRate_of _ _ hr]
  simp only [bind, Except.bind]
  rw [if_neg (by rw [hf]; decide), List.map_const']
  congr 2
  unfold yearSeconds
  ring

/-- **C47** faint young sun, table in descending time order as the reader returns it: each
step delivers the rate times the seconds of a step times a luminosity between the bounds
of the table. -/
theorem C47_faint_sun (cfg : SolarCfg K) (lum : List (K × K)) (time : List K) (r lo hi : K)
    (hr : RateOf cfg.solar_wind_mode r) (hf : cfg.faint_young_sun = true) (hne : lum ≠ [])
    (hdesc : lum.Pairwise (fun a b => b.1 < a.1))
    (hlo : ∀ p ∈ lum, lo ≤ p.2) (hhi : ∀ p ∈ lum, p.2 ≤ hi) :
    ∃ out, solarWindMass cfg lum time = .ok out ∧ out.length = time.length ∧
      ∀ (i : Nat) t, time[i]? = some t → ∃ l, lo ≤ l ∧ l ≤ hi ∧
        out[i]? = some (r * (yearSeconds * cfg.timestep) * l) ∧
        (∀ p ∈ lum, p.1 = t → l = p.2) := by
  have hasc : KnotsAsc (lum.map (fun p => (-p.1, p.2))) := by
    unfold KnotsAsc
    rw [List.pairwise_map]
    exact hdesc.imp (fun h => neg_lt_neg h)
  have hsome : ∀ t : K, ∃ l, npInterp (-t) (lum.map (fun p => (-p.1, p.2))) = some l := by
    intro t
    cases lum with
    | nil => exact absurd rfl hne
    | cons p rest => exact ⟨_, rfl⟩
  obtain ⟨out, ho, hlen, hget⟩ := mapM_ok (fun t : K =>
      match npInterp (-t) (lum.map (fun r => (-r.1, r.2))) with
      | some l => (.ok (1 * (r * 60 * 60 * 24 * 365 * cfg.timestep) * l) : Except PyErr K)
      | none => .error .valueError) time (by
    intro t _
    obtain ⟨l, hl⟩ := hsome t
    exact ⟨_, by rw [hl]⟩)
  refine ⟨out, ?_, hlen, ?_⟩
  · unfold solarWindMass
    rw [solarRate_of _ _ hr]
    simp only [bind, Except.bind]
    rw [if_pos hf]
    exact ho
  · intro i t ht
    obtain ⟨b, hb, hfb⟩ := hget i t ht
    obtain ⟨l, hl⟩ := hsome t
    simp only [hl, Except.ok.injEq] at hfb
    have hbd := npInterp_between (-t) lo hi l _ hl (by
      intro p hp
      obtain ⟨q, hq, rfl⟩ := List.mem_map.1 hp
      exact ⟨hlo q hq, hhi q hq⟩)
    refine ⟨l, hbd.1, hbd.2, ?_, ?_⟩
    · rw [hb, ← hfb]; congr 1; unfold yearSeconds; ring
    · intro p hp hpt
      have := npInterp_knot _ hasc (-p.1, p.2) (List.mem_map.2 ⟨p, hp, rfl⟩)
      simp only [hpt] at this
      rw [hl] at this
      exact Option.some.inj this

/-- **C47** the luminosity reader turns a file in increasing solar age into the descending
times the interpolation needs. -/
theorem C47_reader_order (rows : List (K × K)) (h : rows.Pairwise (fun a b => a.1 < b.1)) :
    (readLuminosity rows).Pairwise (fun a b => b.1 < a.1) := by
  unfold readLuminosity
  rw [List.pairwise_map]
  refine h.imp (fun {a b} hab => ?_)
  simp only []
  linarith

/-- **C47** a brightening sun: the supply never falls along the run. -/
theorem C47_brightening (cfg : SolarCfg K) (lum : List (K × K)) (time out : List K) (r : K)
    (hr : RateOf cfg.solar_wind_mode r) (hf : cfg.faint_young_sun = true)
    (hts : 0 ≤ cfg.timestep) (hmono : lum.Pairwise (fun a b => a.2 ≤ b.2))
    (hout : solarWindMass cfg lum time = .ok out) (i j : Nat) (ti tj : K)
    (hi : time[i]? = some ti) (hj : time[j]? = some tj) (hij : tj ≤ ti) :
    ∃ a b, out[i]? = some a ∧ out[j]? = some b ∧ a ≤ b := by
  have hr0 : 0 ≤ r := by
    rcases hr with ⟨_, h⟩ | ⟨_, h⟩ <;> linarith
  have hm : KnotsMono (lum.map (fun p => (-p.1, p.2))) := by
    unfold KnotsMono; rw [List.pairwise_map]; exact hmono
  have hne : lum ≠ [] := by
    rintro rfl
    unfold solarWindMass at hout
    rw [solarRate_of _ _ hr] at hout
    simp only [bind, Except.bind] at hout
    rw [if_pos hf] at hout
    cases time with
    | nil => simp at hi
    | cons t ts => simp [npInterp, List.mapM_cons, bind, Except.bind] at hout
  have hsome : ∀ t : K, ∃ l, npInterp (-t) (lum.map (fun p => (-p.1, p.2))) = some l := by
    intro t
    cases lum with
    | nil => exact absurd rfl hne
    | cons p rest => exact ⟨_, rfl⟩
  obtain ⟨out', ho, hlen, hget⟩ := mapM_ok (fun t : K =>
      match npInterp (-t) (lum.map (fun r => (-r.1, r.2))) with
      | some l => (.ok (1 * (r * 60 * 60 * 24 * 365 * cfg.timestep) * l) : Except PyErr K)
      | none => .error .valueError) time (by
    intro t _
    obtain ⟨l, hl⟩ := hsome t
    exact ⟨_, by rw [hl]⟩)
  have : out = out' := by
    unfold solarWindMass at hout
    rw [solarRate_of _ _ hr] at hout
    simp only [bind, Except.bind] at hout
    rw [if_pos hf] at hout
    exact Except.ok.inj (hout.symm.trans ho)
  subst this
  obtain ⟨a, ha, hfa⟩ := hget i ti hi
  obtain ⟨b, hb, hfb⟩ := hget j tj hj
  obtain ⟨la, hla⟩ := hsome ti
  obtain ⟨lb, hlb⟩ := hsome tj
  simp only [hla, Except.ok.injEq] at hfa
  simp only [hlb, Except.ok.injEq] at hfb
  refine ⟨a, b, ha, hb, ?_⟩
  rw [← hfa, ← hfb]
  apply mul_le_mul_of_nonneg_left (npInterp_mono _ _ la lb _ (neg_le_neg hij) hm hla hlb)
  positivity

/-- **C47** the thickness delivered: the mass of each step through the ice thickness. -/
theorem C47_thickness (cfg : SolarCfg K) (lum : List (K × K)) (time mass : List K) (area : K)
    (hon : cfg.solar_wind_ice = true) (ha : AreaOf cfg.toIceCfg area) (h0 : 0 < area)
    (hd : 0 < cfg.ice_density) (hm : solarWindMass cfg lum time = .ok mass) :
    ∃ out, solarWindIce cfg lum time = .ok out ∧ out.length = mass.length ∧
      ∀ (i : Nat) m, mass[i]? = some m → ∃ x, out[i]? = some x ∧
        x * area * cfg.ice_density = cfg.ballistic_hop_effcy * m := by
  obtain ⟨out, ho, hl, hg⟩ := mapM_ok (fun m => iceThickness cfg.toIceCfg m) mass
    (fun m _ => ⟨_, iceThickness_eq cfg.toIceCfg area m ha⟩)
  refine ⟨out, ?_, hl, ?_⟩
  · unfold solarWindIce
    rw [if_pos hon, hm]
    exact ho
  · intro i m hi
    obtain ⟨x, hx, hf⟩ := hg i m hi
    obtain ⟨y, hy, hb, _⟩ := C43_mass_balance cfg.toIceCfg area m ha h0 hd
    rw [hf] at hy
    cases hy
    exact ⟨x, hx, hb⟩

/-- The mode name is matched without case; a two-row table, times inside and before it. -/
example : solarWindMass (⟨⟨"H2O", 1, 1, 1, 1⟩, true, "Benna", true, 1000⟩ : SolarCfg ℚ)
    (readLuminosity [(1, 1 / 2), (3, 1)]) [4000000000, 2570000000] =
      .ok [31536000, 47304000] := by decide +kernel

/-! ### Overturn depth -/

/-- **C48** Costello mode: the present depth up to `t0`, at least it before, growing
linearly with age, with no jump at `t0`. -/
theorem C48_costello (cfg : OverturnCfg K) (hs : 0 ≤ cfg.overturn_ancient_slope)
    (hd : 0 ≤ cfg.overturn_depth_present) :
    (∀ t, t ≤ cfg.overturn_ancient_t0 → overturnCostello cfg t = cfg.overturn_depth_present) ∧
    (∀ t, cfg.overturn_depth_present ≤ overturnCostello cfg t) ∧
    (∀ t u, t ≤ u → overturnCostello cfg t ≤ overturnCostello cfg u) ∧
    (∀ t u, overturnCostello cfg u - overturnCostello cfg t ≤
      cfg.overturn_depth_present * cfg.overturn_ancient_slope * |u - t|) ∧
    (∀ t u, cfg.overturn_ancient_t0 ≤ t → cfg.overturn_ancient_t0 ≤ u →
      overturnCostello cfg u - overturnCostello cfg t =
        cfg.overturn_depth_present * cfg.overturn_ancient_slope * (u - t)) := by
  have key : ∀ t, overturnCostello cfg t = cfg.overturn_depth_present +
      cfg.overturn_depth_present * cfg.overturn_ancient_slope *
        max 0 (t - cfg.overturn_ancient_t0) := by
    intro t
    unfold overturnCostello
    simp only []
    split
    · rename_i h; rw [max_eq_right (by linarith)]; ring
    · rename_i h; rw [max_eq_left (by linarith)]; ring
  have hp : 0 ≤ cfg.overturn_depth_present * cfg.overturn_ancient_slope := mul_nonneg hd hs
  refine ⟨?_, ?_, ?_, ?_, ?_⟩
  · intro t ht; rw [key, max_eq_left (by linarith)]; ring
  · intro t; rw [key]
    have := mul_nonneg hp (le_max_left 0 (t - cfg.overturn_ancient_t0)); linarith
  · intro t u h
    rw [key, key]
    have : max 0 (t - cfg.overturn_ancient_t0) ≤ max 0 (u - cfg.overturn_ancient_t0) :=
      max_le_max (le_refl _) (by linarith)
    have := mul_le_mul_of_nonneg_left this hp
    linarith
  · intro t u
    rw [key, key]
    have h1 : max 0 (u - cfg.overturn_ancient_t0) - max 0 (t - cfg.overturn_ancient_t0) ≤
        |u - t| := by
      rcases le_total u t with h | h
      · have : max 0 (u - cfg.overturn_ancient_t0) ≤ max 0 (t - cfg.overturn_ancient_t0) :=
          max_le_max (le_refl _) (by linarith)
        have := abs_nonneg (u - t)
        linarith
      · rw [abs_of_nonneg (by linarith)]
        have : max 0 (u - cfg.overturn_ancient_t0) ≤
            max 0 (t - cfg.overturn_ancient_t0) + (u - t) := by
          apply max_le
          · have := le_max_left 0 (t - cfg.overturn_ancient_t0); linarith
          · have := le_max_right 0 (t - cfg.overturn_ancient_t0); linarith
        linarith
    have := mul_le_mul_of_nonneg_left h1 hp
    linarith
  · intro t u h1 h2
    rw [key, key, max_eq_right (by linarith), max_eq_right (by linarith)]; ring

/-- **C48** the depth column of a run: one entry per time; the mode picks the rule; the
Cannon depth is the erosion rate per 10 Myr scaled to the step. -/
theorem C48_column (cfg : OverturnCfg K) (time : List K) :
    (overturnDepth cfg time).length = time.length ∧
    ∀ (i : Nat) t, time[i]? = some t → ∃ d, (overturnDepth cfg time)[i]? = some d ∧
      (cfg.impact_gardening_costello = false →
        d * 10000000 = cfg.ice_erosion_rate * cfg.timestep) ∧
      (cfg.impact_gardening_costello = true → t ≤ cfg.overturn_ancient_t0 →
        d = cfg.overturn_depth_present) ∧
      (cfg.impact_gardening_costello = true → cfg.overturn_ancient_t0 ≤ t →
        d = cfg.overturn_depth_present *
          (1 + cfg.overturn_ancient_slope * (t - cfg.overturn_ancient_t0))) := by
  unfold overturnDepth
  by_cases hc : cfg.impact_gardening_costello = true
  · rw [if_pos hc]
    refine ⟨by simp, ?_⟩
    intro i t ht
    refine ⟨_, by rw [List.getElem?_map, ht]; rfl, ?_, ?_, ?_⟩
    · intro h; rw [h] at hc; cases hc
    · intro _ h; unfold overturnCostello; simp only []; rw [if_neg (not_lt.2 h), one_mul]
    · intro _ h
      unfold overturnCostello; simp only []
      rcases h.lt_or_eq with h | h
      · rw [if_pos h]; ring
      · rw [h]; simp
  · rw [if_neg hc]
    refine ⟨by simp, ?_⟩
    intro i t ht
    refine ⟨_, by rw [List.getElem?_map, ht]; rfl, ?_, ?_, ?_⟩
    · intro _; field_simp
    · intro h; exact absurd h hc
    · intro h; exact absurd h hc

example : overturnDepth (⟨true, 1, 10, 20, 3, 1 / 10⟩ : OverturnCfg ℚ) [40, 30, 20, 10] =
    [9, 6, 3, 3] := by decide +kernel

end MoonPIES
