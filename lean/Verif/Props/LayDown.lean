import Verif.Lemmas.LayDown
import Verif.Props.Run
import Verif.Props.Main

/-!
# C142: precomputed deliveries and layers laid down one by one
-/

namespace MoonPIES

open Spec

variable {K : Type} [Field K] [LinearOrder K]

/-- **C142** updating columns that hold all deliveries from the start gives every cold trap the pile that grows
event by event: sedimentation, then new ice and ejecta, then gardening. -/
theorem C142_column [IsStrictOrderedRing K] (shield : K) (names : List String) (hnd : names.Nodup)
    (cols cols' : PyDict (StratCol K)) (overturn : List K) (bsedDepth bsedFrac : List (List K))
    (h : updateStratCols (fun x => x) shield true names cols overturn bsedDepth bsedFrac = .ok cols')
    (j : Nat) (name : String) (hj : names[j]? = some name) (c : StratCol K) (hc : cols.get name = .ok c)
    (hi : c.ice.length = overturn.length) (he : c.ej.length = overturn.length) :
    ∃ (c' : StratCol K) (vs : List (Event K)), cols'.get name = .ok c' ∧ c'.ej = c.ej ∧
      vs.map (·.ice) = c.ice ∧ vs.map (·.ej) = c.ej ∧ vs.map (·.overturn) = overturn ∧
      (∀ (t : Nat) v, vs[t]? = some v → (bsedDepth[t]?).bind (·[j]?) = some v.bsedDepth ∧
        (bsedFrac[t]?).bind (·[j]?) = some v.bsedFrac) ∧
      c'.ice = ((layDown [] vs).map (·.1)).reverse := by
  obtain ⟨c', vs, m1, m2, -, m4, m5, m6, m7, m8⟩ := updateFrom_layDown hnd hj overturn 0 cols cols' c h hc
    (by omega) (by omega)
  refine ⟨c', vs, m1, m2, m4, m5, m6, ?_, ?_⟩
  · intro t v hv
    obtain ⟨a, b⟩ := m7 t v hv
    rw [Nat.zero_add] at a b
    have key : ∀ {m : List (List K)} {x : K}, pyGet2 m t j = .ok x → (m[t]?).bind (·[j]?) = some x := by
      intro m x hx
      unfold pyGet2 pyGet at hx
      cases hr : m[t]? with
      | none => rw [hr] at hx; cases hx
      | some row =>
        rw [hr] at hx
        simp only [bind, Except.bind] at hx
        cases hq : row[j]? with
        | none => rw [hq] at hx; cases hx
        | some y => rw [hq] at hx; injection hx with hx; subst hx; simpa using hq
    exact ⟨key a, key b⟩
  · rw [m8]
    simp [pileOf]

/-- **C142** a run can be stopped after any event and taken up again from the layers it has. -/
theorem C142_resume (l : List (K × K)) (vs ws : List (Event K)) :
    layDown l (vs ++ ws) = layDown (layDown l vs) ws := by
  induction vs generalizing l with
  | nil => rfl
  | cons v vs ih => exact ih _

theorem sink_no_depth {depth : K} (h : depth ≤ 0) (eff : K) (l : List (K × K)) : sink depth eff 0 l = l := by
  cases l with
  | nil => rfl
  | cons p l =>
    obtain ⟨x, e⟩ := p
    rw [sink, if_neg (by rintro ⟨h', -⟩; exact absurd h' (not_lt.2 h))]

/-- **C142** without ballistic sedimentation it does not matter whether new ice is laid down first in a timestep, as
the documentation says. -/
theorem C142_order (vs : List (Event K)) (h : ∀ v ∈ vs, v.bsedDepth ≤ 0) (l : List (K × K)) :
    layDown l vs = layDownFirst l vs := by
  induction vs generalizing l with
  | nil => rfl
  | cons v vs ih =>
    rw [layDown, layDownFirst, ih (fun w hw => h w (List.mem_cons_of_mem _ hw)),
      sink_no_depth (h v (by simp)), sink_no_depth (h v (by simp))]

/-- **C142** with it, it does: the documented order (docs/model_overview.md:24-26) would let the ejecta and ice of the
timestep be worked by the sedimentation that brings them. -/
theorem C142_order_matters : ¬ ∀ (vs : List (Event ℚ)), (∀ v ∈ vs, 0 ≤ v.ice ∧ 0 ≤ v.ej ∧ 0 ≤ v.overturn ∧
    0 ≤ v.bsedDepth ∧ 0 ≤ v.bsedFrac ∧ v.bsedFrac ≤ 1) → layDown [] vs = layDownFirst [] vs := by
  intro h
  have := h [⟨2, 0, 0, 0, 0⟩, ⟨1, 3, 0, 4, 1 / 2⟩] (by decide +kernel)
  exact absurd this (by decide +kernel)

/-- The update loop and the pile on the example: two cold traps, sedimentation in the second. -/
example : layDown [] ([⟨1, 0, 1 / 2, 0, 0⟩, ⟨2, 1, 1, 3, 1 / 2⟩, ⟨2, 1, 3 / 2, 0, 0⟩] : List (Event ℚ)) =
    [(3 / 2, 1), (2, 1), (1 / 4, 0)] ∧
    (updateStratCols (fun x => x) (2 / 5 : ℚ) true ["Haworth"]
      [("Haworth", ⟨[1, 2, 2], [0, 1, 1], ["", "", ""]⟩)] [1 / 2, 1, 3 / 2] [[0], [3], [0]] [[0], [1 / 2], [0]]).map
      (fun c => c.map (·.2.ice)) = .ok [[1 / 4, 2, 3 / 2]] := by decide +kernel

variable {σ : Type}

/-- **C142** whenever a run with gardening by Costello et al. returns: the ice of every cold trap is the pile of what
was delivered to it, laid down event by event. -/
theorem C142_run (g : Gen σ) (hg : LawfulGen g) (c : RunCfg) (d : RunData) (hc : PhysicalCfg c)
    (hd : PhysicalData c d) (hnd : c.coldtrap_names.Nodup) (hcost : c.impact_gardening_costello = true)
    (out : CsvOut) (hrun : runMain g c d = .ok out) :
    ∃ df s time delivered s' dists thick bd bf, craterBasinList g c d (g.init c.seed) = .ok (df, s) ∧
      getTimeArray c.timestart c.timeend c.timestep = .ok time ∧
      iceCols g c d df time s = .ok (delivered, s') ∧
      coldtrapDists c.ej (df.map (·.rest.crater)) c.coldtrap_names = .ok dists ∧
      thicknessMatrix c df dists = .ok thick ∧ bsedArrays c d time df dists thick = .ok (bd, bf) ∧
      ∀ (j : Nat) name, c.coldtrap_names[j]? = some name → ∃ (ice ej : List ℝ) (vs : List (Event ℝ)),
        out.ice.get name = .ok ice ∧ out.ej.get name = .ok ej ∧ vs.length = time.length ∧
        vs.map (·.ej) = ej ∧ vs.map (·.overturn) = overturnDepth c.overturn time ∧
        (∀ (t : Nat) v, vs[t]? = some v → (delivered[t]?).bind (·[j]?) = some v.ice ∧
          (bd[t]?).bind (·[j]?) = some v.bsedDepth ∧ (bf[t]?).bind (·[j]?) = some v.bsedFrac) ∧
        ice = ((layDown [] vs).map (·.1)).reverse := by
  unfold runMain at hrun
  obtain ⟨st, hst, hrun⟩ := bind_ok_inv hrun
  obtain ⟨cols, hcols, hrun⟩ := bind_ok_inv hrun
  have hrun := liftPy_ok hrun
  have hcols := liftPy_ok hcols
  obtain ⟨hne, hfmt⟩ := formatCsv_inv _ _ _ _ _ _ hrun
  obtain ⟨ht, s, s', rows, hdf, hice, hrl, hrn, hget, hall⟩ := setup_cols g hg hc hd hnd hne st hst
  obtain ⟨s1, s2, dists, thick, h1, h2, h3, h4, h5, hbsed, hov⟩ := setup_inv g c d st hst
  refine ⟨st.df, s, st.time, rows, s', dists, thick, st.bsedDepth, st.bsedFrac, hdf, h1, hice, h3, h4, hbsed, ?_⟩
  intro j name hj
  have hn := List.mem_of_getElem? hj
  obtain ⟨r, hr, hrn', col, table, t1, t2, t3, t4, t5⟩ := hfmt name hn
  obtain ⟨col0, k8, k9⟩ := hget j name hj
  obtain ⟨l1, l2, l3, l4⟩ := hall _ (PyDict.mem_of_get k8)
  have hovl : st.overturn.length = st.time.length := by
    rw [hov]
    unfold overturnDepth
    split <;> simp
  rw [hcost] at hcols
  obtain ⟨c', vs, m1, m2, m3, m4, m5, m6, m7⟩ := C142_column ejShield c.coldtrap_names hnd st.cols cols st.overturn
    st.bsedDepth st.bsedFrac hcols j name hj col0 k8 (by rw [hovl]; exact l1) (by rw [hovl]; exact l2)
  rw [t1] at m1
  injection m1 with m1
  subst m1
  obtain ⟨m9, m10⟩ := column_spec (List.getElem?_eq_some_iff.1 hj).1 rows (fun row hr => (hrn row hr).1)
  have hvl : vs.length = st.time.length := by
    rw [← hovl, ← m5, List.length_map]
  refine ⟨col.ice, col.ej, vs, t3, t4, hvl, by rw [m2, m4], by rw [m5, hov], ?_, m7⟩
  intro t v hv
  refine ⟨?_, (m6 t v hv).1, (m6 t v hv).2⟩
  have htl : t < rows.length := by
    rw [hrl, ← hvl]; exact (List.getElem?_eq_some_iff.1 hv).1
  have e1 : col0.ice[t]? = some v.ice := by rw [← m3, List.getElem?_map, hv]; rfl
  rw [List.getElem?_eq_getElem htl, Option.bind_some, ← m10 t _ (List.getElem?_eq_getElem htl), ← k9, e1]

end MoonPIES
