import Verif.Model.Basic

/-!
# Facts about loops with exceptions
-/

namespace MoonPIES

/-- A comprehension whose body never raises: same length, element by element. -/
theorem mapM_ok {ε α β : Type} (f : α → Except ε β) (l : List α)
    (h : ∀ a ∈ l, ∃ b, f a = .ok b) :
    ∃ m, l.mapM f = .ok m ∧ m.length = l.length ∧
      ∀ (i : Nat) a, l[i]? = some a → ∃ b, m[i]? = some b ∧ f a = .ok b := by
  induction l with
  | nil => exact ⟨[], rfl, rfl, by simp⟩
  | cons a l ih =>
    obtain ⟨b, hb⟩ := h a (by simp)
    obtain ⟨m, hm, hl, hi⟩ := ih (fun x hx => h x (by simp [hx]))
    refine ⟨b :: m, ?_, by simp [hl], ?_⟩
    · rw [List.mapM_cons, hb, hm]; rfl
    · intro i x hx
      cases i with
      | zero =>
        simp only [List.getElem?_cons_zero, Option.some.injEq] at hx
        exact ⟨b, by simp, hx ▸ hb⟩
      | succ i =>
        simp only [List.getElem?_cons_succ] at hx ⊢
        exact hi i x hx

/-- A comprehension whose body is a total function. -/
theorem mapM_eq_map {α β : Type} (f : α → Except PyErr β) : ∀ (l : List α) (g : α → β),
    (∀ a ∈ l, f a = .ok (g a)) → l.mapM f = .ok (l.map g)
  | [], _, _ => rfl
  | a :: l, g, h => by
    rw [List.mapM_cons, h a (by simp), mapM_eq_map f l g (fun a ha => h a (by simp [ha]))]
    rfl

end MoonPIES
