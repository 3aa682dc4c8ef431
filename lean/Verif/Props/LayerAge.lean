import Verif.Props.Correlate
import Verif.Lemmas.Steps

/-!
# C184: the time of a layer is the age of the craters it names
-/

namespace MoonPIES

open Spec

/-- An age on the grid of the times of a run has itself as nearest time. -/
theorem nearest_grid {dt age t : ℝ} {n i : Nat} (hdt : 0 < dt) (htol : (n : ℝ) * RunCfg.rtol < 1)
    (k : ℤ) (hk : age = k * dt) (hin : InRange RunCfg.rtol (uniformGrid (n * dt) dt n) age)
    (hi : Nearest (uniformGrid (n * dt) dt n) age i) (ht : (uniformGrid (n * dt) dt n)[i]? = some t) : t = age := by
  have hmem : ∀ x ∈ uniformGrid ((n : ℝ) * dt) dt n, dt ≤ x ∧ x ≤ n * dt := by
    intro x hx
    unfold uniformGrid at hx
    obtain ⟨j, hj, rfl⟩ := List.mem_map.1 hx
    have hj := List.mem_range.1 hj
    have h1 : (j : ℝ) + 1 ≤ n := by exact_mod_cast hj
    have h2 : (0 : ℝ) ≤ j := Nat.cast_nonneg j
    constructor <;> nlinarith
  have hr0 : (0 : ℝ) < RunCfg.rtol := by unfold RunCfg.rtol; norm_num
  have hr1 : RunCfg.rtol < (1 : ℝ) := by unfold RunCfg.rtol; norm_num
  obtain ⟨⟨lo, l1, -, l3⟩, ⟨hh, u1, -, u3⟩⟩ := hin
  obtain ⟨l4, -⟩ := hmem lo l1
  obtain ⟨u4, u5⟩ := hmem hh u1
  have hlo : 0 < lo := lt_of_lt_of_le hdt l4
  have hhi : 0 < hh := lt_of_lt_of_le hdt u4
  rw [abs_of_pos hlo] at l3
  rw [abs_of_pos hhi] at u3
  have k1 : (0 : ℝ) < k := by
    have : 0 < age := by nlinarith
    rw [hk] at this
    exact pos_of_mul_pos_left this hdt.le
  have k2 : (k : ℝ) < n + 1 := by
    have h1 : hh * RunCfg.rtol ≤ n * dt * RunCfg.rtol := mul_le_mul_of_nonneg_right u5 hr0.le
    have h2 : n * dt * RunCfg.rtol < dt := by nlinarith
    have : (k : ℝ) * dt < (n + 1) * dt := by rw [← hk]; linarith
    exact lt_of_mul_lt_mul_right this hdt.le
  have k1' : 1 ≤ k := by exact_mod_cast k1
  have k2' : k ≤ n := by
    have : k < (n : ℤ) + 1 := by exact_mod_cast k2
    omega
  obtain ⟨m, hm⟩ : ∃ m : Nat, (m : ℤ) = n - k := ⟨(n - k).toNat, by omega⟩
  have hmn : m < n := by omega
  have hmR : (m : ℝ) = n - k := by exact_mod_cast hm
  have hg : (uniformGrid ((n : ℝ) * dt) dt n)[m]? = some age := by
    unfold uniformGrid
    rw [List.getElem?_map, List.getElem?_range hmn, Option.map_some, hmR, hk]
    congr 1
    ring
  obtain ⟨t', t1, t2, -⟩ := hi
  rw [ht] at t1
  injection t1 with t1
  have := t2 m age hg
  rw [sub_self, abs_zero, ← t1] at this
  exact sub_eq_zero.1 (abs_nonpos_iff.1 this)

variable {σ : Type}

/-- **C184** every run that ends at the present with whole timesteps, with plain and distinct names: the time of a layer is the
age of every crater and basin it names, which lies within the error bars of the listed age up to half a timestep. Two named
craters are in one layer exactly if they have one age. -/
theorem C184_run (g : Gen σ) (hg : LawfulGen g) (c : RunCfg) (d : RunData) (hc : PhysicalCfg c)
    (hd : PhysicalData c d) (hl : Lunar c d) (hr : Runnable c d) (hmin : 0 ≤ c.thickness_min)
    (hdt : 0 < c.timestep) (n : Nat) (hn : 1 < n) (htol : (n : ℝ) * RunCfg.rtol < 1) (hts : c.timestart = n * c.timestep)
    (hte : c.timeend = 0) (hplain : ∀ r ∈ d.craters ++ d.basins, PlainName r.cname)
    (hnames : ((d.craters ++ d.basins).map (·.cname)).Nodup) :
    ∃ out df s, runMain g c d = .ok out ∧ craterBasinList g c d (g.init c.seed) = .ok (df, s) ∧
      ∀ name ∈ c.coldtrap_names, ∃ table, out.strat.get name = .ok table ∧ ∀ q ∈ df, ∀ r ∈ table,
        Named q.rest.crater.cname r →
          r.time = q.age ∧
          (∃ raw ∈ d.craters ++ d.basins, raw.cname = q.rest.crater.cname ∧
            raw.age * 1e9 - raw.age_low * 1e9 - c.timestep / 2 ≤ r.time ∧
            r.time ≤ raw.age * 1e9 + raw.age_upp * 1e9 + c.timestep / 2) ∧
          ∀ q' ∈ df, ∀ r' ∈ table, Named q'.rest.crater.cname r' → (r = r' ↔ q.age = q'.age) := by
  obtain ⟨out, hout⟩ := C72_returns g hg c _ hc hd hr
  have hn1 : (1 : ℝ) < n := by exact_mod_cast hn
  have hlt : c.timestep < c.timestart := by rw [hts]; nlinarith
  have hsp : c.timestep ≤ c.timestart - c.timeend := by rw [hte, sub_zero]; exact hlt.le
  obtain ⟨df, s, time, h1, h2, h3⟩ := C177_run g hg c d hc hd hl hr.nodup hmin hdt hlt hsp hplain hnames out hout
  obtain ⟨df1, s1, k1, k3⟩ := C181_run g hg c d hc hd hl hr.nodup hmin hdt hlt hsp hplain hnames out hout
  obtain ⟨df2, s2, j1, -, j3⟩ := craterBasinList_ok g hg hc hd hr (g.init c.seed)
  rw [h1] at k1 j1
  injection k1 with k1
  injection k1 with k1 _
  subst k1
  injection j1 with j1
  injection j1 with j1 _
  subst j1
  rw [hte] at h2
  have hgrid := run_grid hdt n (by omega) hts h2
  subst hgrid
  refine ⟨out, df, s, hout, h1, ?_⟩
  intro name hname
  obtain ⟨trap, -, -, table, t1, -, t3⟩ := h3 name hname
  obtain ⟨table', u1, u2⟩ := k3 name hname
  rw [t1] at u1
  injection u1 with u1
  subst u1
  have htime : ∀ q ∈ df, ∀ r ∈ table, Named q.rest.crater.cname r → r.time = q.age := by
    intro q hq r hrm hnm
    obtain ⟨x, -, x2, x3⟩ := t3 q hq
    obtain ⟨-, hin, -⟩ := x2.1 ⟨r, hrm, hnm⟩
    obtain ⟨⟨i, i1, i2⟩, -⟩ := x3 r hrm hnm
    obtain ⟨raw, -, b, icy, -, -, -, -, -, k, hk⟩ := j3 q hq
    exact nearest_grid hdt htol k hk hin i1 i2
  refine ⟨table, t1, ?_⟩
  intro q hq r hrm hnm
  have e := htime q hq r hrm hnm
  refine ⟨e, ?_, ?_⟩
  · obtain ⟨raw, w1, b, icy, -, -, w4, w5, w6, -⟩ := j3 q hq
    refine ⟨raw, w1, by rw [w4]; rfl, ?_, ?_⟩
    · rw [e]; exact w5
    · rw [e]; exact w6
  · intro q' hq' r' hrm' hnm'
    have e' := htime q' hq' r' hrm' hnm'
    constructor
    · intro hrr
      rw [← e, ← e', hrr]
    · intro ha
      rcases u2 q hq q' hq' ha.ge r hrm r' hrm' hnm hnm' with h | ⟨h, -⟩
      · exact h
      · rw [e, e', ha] at h
        exact absurd h (lt_irrefl _)

/-- C184 holds for every seed of the default configuration. -/
example (seed : Int) := C184_run constGen constGen_lawful _ _ (default_physical seed)
  (default_data [] sortDesc id id sortDesc_spec seed)
  (default_lunar [] sortDesc id id seed) (default_runnable [] sortDesc id id seed)
  (by norm_num [RunCfg.default]) (by norm_num [RunCfg.default]) 425 (by norm_num) (by norm_num [RunCfg.rtol])
  (by norm_num [RunCfg.default]) (by norm_num [RunCfg.default]) (shipped_plain _ _ _ _) (by
    have := file_names.1
    simp only [shippedData, List.map_append, List.map_map, Function.comp_def] at this ⊢
    exact this)

end MoonPIES
