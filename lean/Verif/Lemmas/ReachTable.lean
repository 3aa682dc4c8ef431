import Verif.Lemmas.Reach

/-!
# The tables of C112 checked with rational arithmetic
-/

namespace MoonPIES

open Spec

theorem craterReach_checked : checkTable 4 craterFile craterReach = true := by decide +kernel

theorem basinReach_checked : checkTable 5 basinFile basinReach = true := by decide +kernel

theorem checkTable_sound {k : ℚ} {file : List FileRow} {tab : List (String × List String)}
    (h : checkTable k file tab = true) : ∀ e ∈ tab, ∃ t, rowNamed e.1 = some t ∧ t.cname = e.1 ∧
      ∀ src ∈ file, (Reaches k src t ↔ src.cname ∈ e.2) := by
  intro e he
  unfold checkTable at h
  have := List.all_eq_true.1 h e he
  cases ht : rowNamed e.1 with
  | none => rw [ht] at this; cases this
  | some t =>
    rw [ht] at this
    refine ⟨t, rfl, ?_, ?_⟩
    · have := List.find?_some ht
      simpa using this
    · intro src hs
      have h2 := List.all_eq_true.1 this src hs
      rw [reachQ_sound k src t _ (by simpa using h2)]
      simp

end MoonPIES
