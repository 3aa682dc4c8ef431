import Verif.Lemmas.TrapOrder
import Verif.Props.TwoTraps

/-!
# C130: the order in which the cold traps are listed
-/

namespace MoonPIES

open Spec

variable {σ : Type}

/-- **C130** (before the loop) With the same cold traps in another order each of them loses the
same fractions to ballistic sedimentation. -/
theorem C130_setup (g : Gen σ) (c : RunCfg) (d : RunData) (ns : List String)
    (hnd : c.coldtrap_names.Nodup) (hnd' : ns.Nodup) (hsame : ∀ n, n ∈ ns ↔ n ∈ c.coldtrap_names)
    (st st' : Setup σ) (h : setup g c d = .ok st) (h' : setup g (withTraps c ns) d = .ok st')
    (j j' : Nat) (name : String) (hj : c.coldtrap_names[j]? = some name)
    (hj' : ns[j']? = some name) : colOf j' st'.bsedFrac = colOf j st.bsedFrac := by
  obtain ⟨k1, k2, -, k4⟩ := C129_setup g c d ns hnd hnd' st st' h h'
  cases hb : c.ballistic_sed with
  | false => exact (k4 j j' name hj hj').2.2 hb
  | true =>
    obtain ⟨s1, s2, dists, thick, a1, a2, a3, a4, a5, a6, a7⟩ := setup_inv g c d st h
    obtain ⟨s1', s2', dists', thick', b1, b2, b3, b4, b5, b6, b7⟩ := setup_inv g _ _ st' h'
    rw [k1, k2] at b6
    rw [k2] at b3
    have hjl : j < c.coldtrap_names.length := (List.getElem?_eq_some_iff.1 hj).1
    have hjl' : j' < ns.length := (List.getElem?_eq_some_iff.1 hj').1
    have hne : st.time ≠ [] := by
      obtain ⟨ej, ice, e1, -, -⟩ := initStratCols_inv _ _ _ _ _ _ _ _ _ a5
      obtain ⟨f, -, f2⟩ := (mapM_ok_inv _ _ _ e1).2 j j (List.getElem?_range hjl)
      exact (ejectaThicknessTime_ne f2).1
    obtain ⟨melts, m1, m2⟩ := bsedArrays_frac hne a6 hb
    obtain ⟨melts', m1', m2'⟩ := bsedArrays_frac (c := withTraps c ns) hne b6 hb
    have hq : ∀ (i i' : Nat) n, c.coldtrap_names[i]? = some n → ns[i']? = some n →
        trapQueries (withTraps c ns) st.df dists' i' = trapQueries c st.df dists i := by
      intro i i' n hi hi'
      have hcd : column dists' i' = column dists i := colDists a3 b3 hi hi'
      unfold trapQueries
      rw [hcd]
      rfl
    have hmem : ∀ col, col ∈ (List.range c.coldtrap_names.length).map (trapQueries c st.df dists) ↔
        col ∈ (List.range ns.length).map (trapQueries (withTraps c ns) st.df dists') := by
      intro col
      rw [List.mem_map, List.mem_map]
      constructor
      · rintro ⟨i, hi, rfl⟩
        have hi := List.getElem?_eq_getElem (List.mem_range.1 hi)
        obtain ⟨i', hi'⟩ := List.mem_iff_getElem?.1 ((hsame _).2 (List.mem_of_getElem? hi))
        exact ⟨i', List.mem_range.2 (List.getElem?_eq_some_iff.1 hi').1, hq i i' _ hi hi'⟩
      · rintro ⟨i', hi', rfl⟩
        have hi' := List.getElem?_eq_getElem (List.mem_range.1 hi')
        obtain ⟨i, hi⟩ := List.mem_iff_getElem?.1 ((hsame _).1 (List.mem_of_getElem? hi'))
        exact ⟨i, List.mem_range.2 (List.getElem?_eq_some_iff.1 hi).1, (hq i i' _ hi hi').symm⟩
    obtain ⟨m, x1, x2⟩ := getMeltFrac_same m1 m1' hmem j j' (trapQueries c st.df dists j)
      (by rw [List.getElem?_map, List.getElem?_range hjl]; rfl)
      (by
        rw [List.getElem?_map, show (withTraps c ns).coldtrap_names.length = ns.length from rfl,
          List.getElem?_range hjl', ← hq j j' name hj hj']
        rfl)
    obtain ⟨y, o, y1, y2, y3⟩ := m2 j hjl
    obtain ⟨y', o', y1', y2', y3'⟩ := m2' j' hjl'
    rw [x1] at y1
    injection y1 with y1
    subst y1
    rw [x2] at y1'
    injection y1' with y1'
    subst y1'
    have ho : Except.ok o' = (Except.ok o : Except PyErr _) := y2'.symm.trans y2
    injection ho with ho
    rw [y3, y3', ho]
    rfl

/-- **C130** Two complete runs with the same cold traps listed in different orders give every cold
trap the same ice, ejecta and table. -/
theorem C130_order (g : Gen σ) (c : RunCfg) (d : RunData) (ns : List String)
    (hsort : SortDesc d.sortAges) (hperm : ns.Perm c.coldtrap_names)
    (hnd : c.coldtrap_names.Nodup) (out out' : CsvOut) (h : runMain g c d = .ok out)
    (h' : runMain g (withTraps c ns) d = .ok out') (name : String) (hn : name ∈ c.coldtrap_names)
    (honce : ((d.craters ++ d.basins).map (·.cname)).count name ≤ 1) :
    ∃ ice ej table, out.ice.get name = .ok ice ∧ out'.ice.get name = .ok ice ∧
      out.ej.get name = .ok ej ∧ out'.ej.get name = .ok ej ∧ out.strat.get name = .ok table ∧
      out'.strat.get name = .ok table :=
  run_trap_same g c d ns hsort hnd (hperm.nodup_iff.2 hnd) out out' h h' name hn (hperm.mem_iff.2 hn)
    honce (fun st st' s1 s1' j j' hj hj' => C130_setup g c d ns hnd (hperm.nodup_iff.2 hnd)
      (fun _ => hperm.mem_iff) st st' s1 s1' j j' name hj hj')

/-- **C130** (returns) If a run satisfies the conditions under which it returns, so does the run
with its cold traps in another order. -/
theorem C130_returns (g : Gen σ) (hg : LawfulGen g) (c : RunCfg) (d : RunData) (ns : List String)
    (hc : PhysicalCfg c) (hd : PhysicalData c d) (hr : Runnable c d)
    (hperm : ns.Perm c.coldtrap_names) : ∃ out', runMain g (withTraps c ns) d = .ok out' := by
  have q1 : PhysicalCfg (withTraps c ns) := { hc with }
  have q2 : PhysicalData (withTraps c ns) d :=
    { hd with hops := fun h n hn => hd.hops h n (hperm.mem_iff.1 hn) }
  have q3 : Runnable (withTraps c ns) d :=
    { hr with
      names := fun h => hr.names (List.Perm.nil_eq ((show ns = [] from h) ▸ hperm)).symm
      nodup := hperm.nodup_iff.2 hr.nodup
      once := fun n hn => hr.once n (hperm.mem_iff.1 hn)
      old := fun r hr' hn => hr.old r hr' (hperm.mem_iff.1 hn)
      peak := fun r hr' hp => ⟨(hr.peak r hr' hp).1, fun t ht hn => (hr.peak r hr' hp).2 t ht
        (hperm.mem_iff.1 hn)⟩ }
  exact C72_returns g hg _ _ q1 q2 q3

/-- C130 for the shipped files and defaults, sedimentation on, with the twelve cold traps reversed. -/
example (seed : Int) : ∃ out out', runMain constGen (RunCfg.default seed)
      (shippedData [] sortDesc id id) = .ok out ∧
    runMain constGen (withTraps (RunCfg.default seed) (RunCfg.default seed).coldtrap_names.reverse)
      (shippedData [] sortDesc id id) = .ok out' ∧
    ∃ ice ej table, out.ice.get "Haworth" = .ok ice ∧ out'.ice.get "Haworth" = .ok ice ∧
      out.ej.get "Haworth" = .ok ej ∧ out'.ej.get "Haworth" = .ok ej ∧
      out.strat.get "Haworth" = .ok table ∧ out'.strat.get "Haworth" = .ok table := by
  have h1 := default_physical seed
  have h2 := default_data [] sortDesc id id sortDesc_spec seed
  have h3 := default_runnable [] sortDesc id id seed
  obtain ⟨out, ho⟩ := C72_returns constGen constGen_lawful _ _ h1 h2 h3
  obtain ⟨out', ho'⟩ := C130_returns constGen constGen_lawful _ _ _ h1 h2 h3
    (List.reverse_perm (RunCfg.default seed).coldtrap_names)
  have hm : "Haworth" ∈ (RunCfg.default seed).coldtrap_names := by simp [RunCfg.default]
  exact ⟨out, out', ho, ho', C130_order _ _ _ _ sortDesc_spec (List.reverse_perm _) h3.nodup _ _ ho ho'
    "Haworth" hm (h3.once _ hm).le⟩

end MoonPIES
