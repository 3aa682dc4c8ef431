import Verif.Props.AgesToTime
import Mathlib.Algebra.Order.BigOperators.Group.List

/-!
# C17, C18: ejecta thickness and source labels per timestep
-/

namespace MoonPIES

open Spec

set_option linter.unusedSectionVars false

variable {K : Type} [Field K] [LinearOrder K]

/-- Comma-separated list, as python `",".join(names)`. -/
def Spec.joinComma : List String → String
  | [] => ""
  | [a] => a
  | a :: b :: rest => a ++ "," ++ joinComma (b :: rest)

/-- A crater name that is not empty and does not end in a comma. -/
def Spec.GoodName (s : String) : Prop := ∃ init c, s.toList = init ++ [c] ∧ c ≠ ','

theorem foldl_append_toList (l : List String) : ∀ s : String,
    (l.foldl (fun acc s => acc ++ s) s).toList = s.toList ++ (l.map String.toList).flatten := by
  induction l with
  | nil => intro s; simp
  | cons a l ih => intro s; simp [ih]

theorem join_good : ∀ (l : List String), l ≠ [] → (∀ s ∈ l, GoodName s) → GoodName (joinComma l) := by
  intro l
  induction l with
  | nil => intro h; exact absurd rfl h
  | cons a l ih =>
    intro _ hg
    cases l with
    | nil => exact hg a (by simp)
    | cons b rest =>
      obtain ⟨init, c, h1, h2⟩ := ih (by simp) (fun s hs => hg s (by simp [hs]))
      refine ⟨a.toList ++ [','] ++ init, c, ?_, h2⟩
      simp only [joinComma, String.toList_append, h1]
      simp

theorem flatten_comma : ∀ (l : List String), l ≠ [] →
    (l.map (fun s => s.toList ++ [','])).flatten = (joinComma l).toList ++ [','] := by
  intro l
  induction l with
  | nil => intro h; exact absurd rfl h
  | cons a l ih =>
    intro _
    cases l with
    | nil => simp [joinComma]
    | cons b rest =>
      have := ih (by simp)
      rw [List.map_cons, List.flatten_cons, this]
      simp [joinComma, String.toList_append]

theorem rstrip_good {s t : String} (h : GoodName s) (ht : t.toList = s.toList ++ [',']) :
    rstripComma t = s := by
  obtain ⟨init, c, h1, h2⟩ := h
  apply String.toList_inj.1
  unfold rstripComma
  rw [String.toList_ofList, ht, h1]
  simp [h2]

/-- Concatenating `name + ","` and stripping the trailing comma is joining. -/
theorem labels_join (l : List String) (hg : ∀ s ∈ l, GoodName s) :
    rstripComma ((l.map (fun s => s ++ ",")).foldl (fun acc s => acc ++ s) "") = joinComma l := by
  cases l with
  | nil => decide
  | cons a l =>
    apply rstrip_good (join_good _ (by simp) hg)
    rw [foldl_append_toList, ← flatten_comma _ (by simp), List.map_map]
    simp [String.toList_append, Function.comp_def]

theorem foldl_skip_empty {α : Type} (l : List α) (P : α → Prop) [DecidablePred P] (f : α → String) :
    ∀ s : String, (l.map (fun a => if P a then f a else "")).foldl (fun acc s => acc ++ s) s =
      ((l.filter (fun a => decide (P a))).map f).foldl (fun acc s => acc ++ s) s := by
  induction l with
  | nil => intro s; rfl
  | cons a l ih =>
    intro s
    by_cases h : P a
    · simp [h, ih]
    · simp [h, ih]

open Classical in
/-- **C17** The source label at time `i` is the comma-separated list, in table
order, of exactly the craters placed at time `i` whose thickness there exceeds
the minimum. -/
theorem C17_source_labels (tol thickMin : K) (time : List K) (hne : time ≠ [])
    (rows : List (EjRow K)) (hnames : ∀ r ∈ rows, GoodName r.cname) :
    ∃ thick srcs, ejectaThicknessTime tol thickMin time rows = .ok (thick, srcs) ∧
      srcs.length = time.length ∧
      ∀ i : Nat, i < time.length → srcs[i]? = some (joinComma ((rows.filter (fun r =>
        decide (InRange tol time r.age ∧ Nearest time r.age i ∧ thickMin < r.thick))).map
          (fun r => r.cname))) := by
  obtain ⟨thick, h1, _, _⟩ := ages2time_spec tol time hne
    (rows.map (fun r => (r.age, some r.thick))) nansum (0 : K)
  obtain ⟨srcs, g1, g2, g3⟩ := ages2time_spec tol time hne
    (rows.map (fun r => (r.age, if r.thick > thickMin then r.cname ++ "," else "")))
    (fun acc s => acc ++ s) ""
  refine ⟨thick, srcs.map rstripComma, ?_, by simpa using g2, ?_⟩
  · unfold ejectaThicknessTime
    rw [h1, g1]; rfl
  · intro i hi
    rw [List.getElem?_map, g3 i hi, Option.map_some]
    congr 1
    have e : itemsAt tol time (rows.map (fun r => (r.age,
        if r.thick > thickMin then r.cname ++ "," else ""))) i =
        (rows.filter (fun r => decide (InRange tol time r.age ∧ Nearest time r.age i))).map
          (fun r => if r.thick > thickMin then r.cname ++ "," else "") := by
      unfold itemsAt
      rw [List.filter_map, List.map_map]
      rfl
    rw [e, foldl_skip_empty _ (fun r : EjRow K => r.thick > thickMin) (fun r => r.cname ++ ","),
      List.filter_filter]
    have e2 : (rows.filter (fun r => decide (r.thick > thickMin) &&
        decide (InRange tol time r.age ∧ Nearest time r.age i))) =
        rows.filter (fun r => decide (InRange tol time r.age ∧ Nearest time r.age i ∧
          thickMin < r.thick)) := by
      apply List.filter_congr
      intro r _
      rw [Bool.eq_iff_iff]
      simp only [Bool.and_eq_true, decide_eq_true_eq]
      tauto
    rw [e2, show (fun r : EjRow K => r.cname ++ ",") = (fun s : String => s ++ ",") ∘ EjRow.cname from rfl,
      ← List.map_map]
    apply labels_join
    intro s hs
    rw [List.mem_map] at hs
    obtain ⟨r, hr, rfl⟩ := hs
    exact hnames r (List.mem_of_mem_filter hr)

/-- C17 on a table with two labelled craters in one bin, a thin one and one out
of range. -/
def exRows : List (EjRow ℚ) :=
  [⟨"Cabeus", 3, 2⟩, ⟨"Faustini", 29 / 10, 1⟩, ⟨"Nobile", 3, 1 / 10000⟩, ⟨"Old", 9, 5⟩]

example : ejectaThicknessTime (1 / 1000000) (1 / 1000) [4, 3, 2, 1] exRows =
    .ok ([0, 30001 / 10000, 0, 0], ["", "Cabeus,Faustini", "", ""]) := by decide +kernel

example : ∀ r ∈ exRows, GoodName r.cname := by
  intro r hr
  simp only [exRows, List.mem_cons, List.not_mem_nil, or_false] at hr
  rcases hr with rfl | rfl | rfl | rfl
  · exact ⟨['C','a','b','e','u'], 's', by decide, by decide⟩
  · exact ⟨['F','a','u','s','t','i','n'], 'i', by decide, by decide⟩
  · exact ⟨['N','o','b','i','l'], 'e', by decide, by decide⟩
  · exact ⟨['O','l'], 'd', by decide, by decide⟩

/-- **C18 refuted.** A layer thinner than `thickness_min` stays in the thickness
array; only its label is dropped. -/
theorem C18_refuted :
    ¬ ∀ (tol thickMin : ℚ) (time : List ℚ) (rows : List (EjRow ℚ)) (thick : List ℚ)
      (srcs : List String), 0 ≤ tol → 0 < thickMin → (∀ r ∈ rows, 0 ≤ r.thick) →
      ejectaThicknessTime tol thickMin time rows = .ok (thick, srcs) →
      ∀ x ∈ thick, x = 0 ∨ thickMin ≤ x := by
  intro hall
  have := hall (1 / 1000000) (1 / 1000) [2, 1] [⟨"Nobile", 1, 1 / 10000⟩] [0, 1 / 10000] ["", ""]
    (by decide +kernel) (by decide +kernel) (by decide +kernel) (by decide +kernel) (1 / 10000)
    (by decide +kernel)
  revert this
  decide +kernel

variable [IsStrictOrderedRing K]

open Classical in
/-- **C18 (partial).** Full claim: no entry lies strictly between 0 and
`thickness_min` (refuted above).  What holds: entry `i` is the total thickness
of the craters placed at `i`, so it is 0 when none is placed there, and every
timestep whose label is non-empty is thicker than `thickness_min`. -/
theorem C18_labelled_layers_partial (tol thickMin : K) (time : List K) (hne : time ≠ [])
    (rows : List (EjRow K)) (hpos : ∀ r ∈ rows, 0 ≤ r.thick) (hmin : 0 ≤ thickMin) :
    ∃ thick srcs, ejectaThicknessTime tol thickMin time rows = .ok (thick, srcs) ∧
      ∀ (i : Nat) x s, thick[i]? = some x → srcs[i]? = some s →
        x = ((rows.filter (fun r => decide (InRange tol time r.age ∧ Nearest time r.age i))).map
          (fun r => r.thick)).sum ∧ (s ≠ "" → thickMin < x) := by
  obtain ⟨thick, h1, h2, h3⟩ := ages2time_spec tol time hne
    (rows.map (fun r => (r.age, some r.thick))) nansum (0 : K)
  obtain ⟨srcs, g1, g2, g3⟩ := ages2time_spec tol time hne
    (rows.map (fun r => (r.age, if r.thick > thickMin then r.cname ++ "," else "")))
    (fun acc s => acc ++ s) ""
  refine ⟨thick, srcs.map rstripComma, ?_, ?_⟩
  · unfold ejectaThicknessTime
    rw [h1, g1]; rfl
  · intro i x s hx hs
    have hi : i < time.length := by rw [← h2]; exact (List.getElem?_eq_some_iff.1 hx).1
    have hxe : x = ((rows.filter (fun r => decide (InRange tol time r.age ∧
        Nearest time r.age i))).map (fun r => r.thick)).sum := by
      rw [h3 i hi] at hx
      cases hx
      rw [foldl_nansum, zero_add]
      unfold itemsAt
      rw [List.filter_map, List.map_map, List.filterMap_map]
      congr 1
      rw [← List.filterMap_eq_map]
      rfl
    refine ⟨hxe, ?_⟩
    intro hne'
    rw [List.getElem?_map, g3 i hi, Option.map_some] at hs
    cases hs
    -- some placed crater is thick enough
    have hex : ∃ r ∈ rows.filter (fun r => decide (InRange tol time r.age ∧ Nearest time r.age i)),
        thickMin < r.thick := by
      by_contra hc
      apply hne'
      have e : itemsAt tol time (rows.map (fun r => (r.age,
          if r.thick > thickMin then r.cname ++ "," else ""))) i =
          (rows.filter (fun r => decide (InRange tol time r.age ∧ Nearest time r.age i))).map
            (fun r => if r.thick > thickMin then r.cname ++ "," else "") := by
        unfold itemsAt
        rw [List.filter_map, List.map_map]
        rfl
      rw [e, foldl_skip_empty _ (fun r : EjRow K => r.thick > thickMin) (fun r => r.cname ++ ",")]
      rw [List.filter_eq_nil_iff.2]
      · exact (by decide : rstripComma "" = "")
      · intro r hr hr'
        exact hc ⟨r, hr, by simpa using hr'⟩
    obtain ⟨r, hr, hrt⟩ := hex
    rw [hxe]
    refine hrt.trans_le ?_
    apply List.single_le_sum
    · intro y hy
      rw [List.mem_map] at hy
      obtain ⟨q, hq, rfl⟩ := hy
      exact hpos q (List.mem_of_mem_filter hq)
    · exact List.mem_map.2 ⟨r, hr, rfl⟩

end MoonPIES
