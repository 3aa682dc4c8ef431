import Verif.Lemmas.Sources
import Verif.Lemmas.MainTotal
import Verif.Props.ImpactRun

/-!
# C98: the sources of polar ice

`Spec.PolarIce` says what each source delivers.  The theorems hold for every lawful generator and
every usable configuration.
-/

namespace MoonPIES

open Spec

variable {σ : Type}

/-- **C98** the polar ice of every timestep is what asteroids, comets if they are on and the solar
wind if it is on deliver; each is drawn from the state the one before left. -/
theorem C98_polar_ice (g : Gen σ) (hg : LawfulGen g) (c : RunCfg) (d : RunData) (h : PhysicalCfg c)
    (hd : PhysicalData c d) (hc : c.is_comet = false) (df : CraterTable)
    (hdf : ∀ r ∈ df, r.rest.crater.isbasin = true → 0 < r.rest.crater.rad)
    (time : List ℝ) (hne : time ≠ []) (s : σ) :
    ∃ out s', polarIce g c (readLuminosity d.lum) df time s = .ok (out, s') ∧
      PolarIce g c (readLuminosity d.lum) df time s out s' := by
  obtain ⟨out, s', ho, hn⟩ := polarIce_ok g hg h hd df hdf time hne s
  exact ⟨out, s', ho, polarIce_spec g hg h hc _ df hdf time hne s s' out hn.1 ho⟩

/-- The sources of the default configuration with the shipped luminosities and one basin, at two
times. -/
example : ∃ out s', polarIce constGen (RunCfg.default 1)
      (readLuminosity (shippedData [] sortDesc id id).lum) basinTable [4000000000, 3800000000] () =
        .ok (out, s') ∧
      PolarIce constGen (RunCfg.default 1) (readLuminosity (shippedData [] sortDesc id id).lum)
        basinTable [4000000000, 3800000000] () out s' :=
  C98_polar_ice constGen constGen_lawful _ _ (default_physical 1)
    (default_data [] sortDesc id id sortDesc_spec 1) rfl basinTable (by
      intro r hr _
      simp only [basinTable, List.mem_singleton] at hr
      subst hr
      simp only [readRow]
      norm_num) _ (by simp) _

/-- **C98** in a complete run, the ice of each cold trap at each time: the polar ice times its own
hop efficiency and the volcanic ice times the volcanic efficiency (or the same hop efficiency),
both over the overall hop efficiency.  The polar ice has the sources above, with the craters and
the generator as the crater list left them. -/
theorem C98_run (g : Gen σ) (hg : LawfulGen g) (c : RunCfg) (d : RunData) (h : PhysicalCfg c)
    (hd : PhysicalData c d) (hr : Runnable c d) (hc : c.is_comet = false) :
    ∃ st s polar volc s', setup g c d = .ok st ∧
      craterBasinList g c d (g.init c.seed) = .ok (st.df, s) ∧
      PolarIce g c (readLuminosity d.lum) st.df st.time s polar s' ∧
      volcanicIce c.volc_mode c.ice c.head (fun x => (roundHalfEven x : ℝ)) d.sortNk
        RunCfg.rtol c.timestep st.time d.nk = .ok volc ∧ volc.length = st.time.length ∧
      ∀ (j : Nat) name, c.coldtrap_names[j]? = some name → ∃ col hop,
        st.cols.get name = .ok col ∧ col.ice.length = st.time.length ∧
        (if c.ballistic_hop_moores then d.hop.get name = .ok hop else hop = c.ballistic_hop_effcy) ∧
        ∀ (i : Nat) x, col.ice[i]? = some x → ∃ p v, polar[i]? = some p ∧ volc[i]? = some v ∧
          x * c.ballistic_hop_effcy =
            p * hop + v * (if c.use_volc_dep_effcy then c.volc_dep_effcy else hop) := by
  obtain ⟨st, hst, -, hgt⟩ := setup_ok g hg h hd hr
  obtain ⟨ht, s, s', rows, hdf, hice, hrl, hrn, hget, -⟩ := setup_cols g hg h hd hr.nodup hr.names st
    hst
  have hrad : ∀ r ∈ st.df, r.rest.crater.isbasin = true → 0 < r.rest.crater.rad := by
    intro r hrm _
    obtain ⟨raw, q1, b, icy, q2⟩ := hgt.rows r hrm
    have := hr.diam raw q1
    rw [q2.2.2.1]
    simp only [readRow]
    positivity
  obtain ⟨polar, s2, hp, hP⟩ := C98_polar_ice g hg c d h hd hc st.df hrad st.time ht s
  obtain ⟨volc, hv, hvn⟩ := volcanicIce_ok h hd st.time
  have hpl : polar.length = st.time.length := by
    obtain ⟨_, _, _, _, _, _, _, l, _⟩ := hP
    exact l
  unfold iceCols at hice
  simp only [bind, Except.bind, hp, hv] at hice
  obtain ⟨rows', hrows, he⟩ := bind_ok_inv (show (iceColsTime c.cols d.hop polar volc).bind
    (fun rows => .ok (rows, s2)) = .ok (rows, s') by exact hice)
  rw [Except.ok.injEq, Prod.mk.injEq] at he
  obtain ⟨rfl, rfl⟩ := he
  have hk := perKg_pos h
  have hback : ∀ l : List ℝ, (l.map (fun x => x / perKg c)).mapM
      (fun m => iceThickness c.cols.toIceCfg m) = .ok l := by
    intro l
    have := thicknessOf_eq h (l.map (fun x => x / perKg c))
    rw [List.map_map] at this
    have e : l.map ((fun m => perKg c * m) ∘ fun x => x / perKg c) = l := by
      conv_rhs => rw [← List.map_id l]
      apply List.map_congr_left
      intro x _
      simp only [Function.comp, id]
      field_simp
    rw [e] at this
    exact this
  have harea : 0 < trapArea c ∧ AreaOf c.cols.toIceCfg (trapArea c) := by
    unfold trapArea
    rcases h.area with ⟨e, h3⟩ | ⟨e, h3⟩
    · rw [if_pos e]; exact ⟨h3, Or.inl ⟨e, rfl⟩⟩
    · rw [if_neg (by rw [e]; decide)]; exact ⟨h3, Or.inr ⟨e, rfl⟩⟩
  obtain ⟨rows2, k1, k2, k3⟩ := C44_ice_cols c.cols d.hop (trapArea c)
    (polar.map (fun x => x / perKg c)) (volc.map (fun x => x / perKg c)) polar volc harea.2 harea.1
    h.dens h.hop (by simp [hpl, hvn.1]) (hback polar) (hback volc)
    (fun hm n hn => by obtain ⟨x, hx, -⟩ := hd.hops hm n hn; exact ⟨x, hx⟩)
  rw [hrows, Except.ok.injEq] at k1
  subst k1
  refine ⟨st, s, polar, volc, _, hst, hdf, hP, hv, hvn.1, ?_⟩
  intro j name hj
  obtain ⟨col, hcol, hcice⟩ := hget j name hj
  have hjl : j < c.coldtrap_names.length := (List.getElem?_eq_some_iff.1 hj).1
  obtain ⟨c1, c2⟩ := column_spec hjl rows' (fun row hrow => (hrn row hrow).1)
  obtain ⟨hop, hhop⟩ : ∃ hop, (if c.ballistic_hop_moores then d.hop.get name = .ok hop
      else hop = c.ballistic_hop_effcy) := by
    by_cases hm : c.ballistic_hop_moores = true
    · obtain ⟨x, hx, -⟩ := hd.hops hm name (List.mem_of_getElem? hj)
      exact ⟨x, by rw [if_pos hm]; exact hx⟩
    · exact ⟨_, by rw [if_neg hm]⟩
  refine ⟨col, hop, hcol, by rw [hcice, c1, hrl], hhop, ?_⟩
  intro i x hx
  have hi : i < st.time.length := by
    rw [← hrl, ← c1, ← hcice]; exact (List.getElem?_eq_some_iff.1 hx).1
  obtain ⟨p, hpi⟩ : ∃ p, polar[i]? = some p := ⟨_, List.getElem?_eq_getElem (by omega)⟩
  obtain ⟨v, hvi⟩ : ∃ v, volc[i]? = some v :=
    ⟨_, List.getElem?_eq_getElem (by rw [hvn.1]; omega)⟩
  refine ⟨p, v, hpi, hvi, ?_⟩
  obtain ⟨row, x', hop', share, r1, r2, r3, r4, r5, r6, -⟩ := k3 i j _ _ name
    (by rw [List.getElem?_map, hpi]; rfl) (by rw [List.getElem?_map, hvi]; rfl) hj
  have hhe : hop' = hop := by
    by_cases hm : c.ballistic_hop_moores = true
    · rw [if_pos (show c.cols.ballistic_hop_moores = true from hm)] at r4
      rw [if_pos hm] at hhop
      rw [r4, Except.ok.injEq] at hhop
      exact hhop
    · rw [if_neg (show ¬ c.cols.ballistic_hop_moores = true from hm)] at r4
      rw [if_neg hm] at hhop
      rw [r4, hhop]; rfl
  have hxx : x = x' := by
    rw [hcice, c2 i row r1, r3, Option.some.injEq] at hx
    exact hx.symm
  have hsh : share = if c.use_volc_dep_effcy then c.volc_dep_effcy else hop := by
    rw [r5, hhe]; rfl
  rw [← hsh, hxx, ← hhe]
  have hone := perKg_mass h 1
  rw [mul_one, mul_one] at hone
  have r6' : x' * trapArea c * c.ice_density = p / perKg c * hop' + v / perKg c * share :=
    r6
  have : x' * (perKg c * trapArea c * c.ice_density) = p * hop' + v * share := by
    have e : x' * (perKg c * trapArea c * c.ice_density) =
      perKg c * (x' * trapArea c * c.ice_density) := by ring
    rw [e, r6']
    field_simp
  rw [hone] at this
  exact this

/-- The default configuration with the shipped data meets the hypotheses of the run. -/
example : PhysicalCfg (RunCfg.default 1) ∧
    PhysicalData (RunCfg.default 1) (shippedData [] sortDesc id id) ∧
    Runnable (RunCfg.default 1) (shippedData [] sortDesc id id) ∧
    (RunCfg.default 1).is_comet = false :=
  ⟨default_physical 1, default_data [] sortDesc id id sortDesc_spec 1,
    default_runnable [] sortDesc id id 1, rfl⟩

end MoonPIES
