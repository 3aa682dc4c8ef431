import Verif.Spec.Strat
import Mathlib.Tactic.Ring
import Mathlib.Tactic.Linarith

/-!
# Lemmas about the stratigraphy table
-/

namespace MoonPIES

open Spec

set_option linter.unusedSectionVars false

section runs

variable {α : Type} (lab : α → String)

/-- Maximal runs, computed from the right. -/
def runs : List α → List (α × List α)
  | [] => []
  | a :: l => match runs l with
    | [] => [(a, [])]
    | (b, bs) :: rest => if lab a = lab b then (a, b :: bs) :: rest else (a, []) :: (b, bs) :: rest

/-- Append the runs of the remaining rows to an open run with label `p`. -/
def attach (p : String) (f : α) (os : List α) : List (α × List α) → List (α × List α)
  | [] => [(f, os)]
  | (b, bs) :: rest => if lab b = p then (f, os ++ b :: bs) :: rest else (f, os) :: (b, bs) :: rest

theorem groupInsert_last (k : String × Nat) (a : α) (f : α) (os : List α) :
    ∀ G : List ((String × Nat) × α × List α), (∀ g ∈ G, g.1 ≠ k) →
      groupInsert k a (G ++ [(k, f, os)]) = G ++ [(k, f, os ++ [a])]
  | [], _ => by simp [groupInsert]
  | g :: G, h => by
    have h1 : g.1 ≠ k := h g (by simp)
    have := groupInsert_last k a f os G (fun g hg => h g (by simp [hg]))
    obtain ⟨k', f', os'⟩ := g
    simp only [List.cons_append, groupInsert]
    rw [if_neg h1, this]

theorem groupInsert_new (k : String × Nat) (a : α) :
    ∀ G : List ((String × Nat) × α × List α), (∀ g ∈ G, g.1 ≠ k) →
      groupInsert k a G = G ++ [(k, a, [])]
  | [], _ => by simp [groupInsert]
  | g :: G, h => by
    have h1 : g.1 ≠ k := h g (by simp)
    have := groupInsert_new k a G (fun g hg => h g (by simp [hg]))
    obtain ⟨k', f', os'⟩ := g
    simp only [List.cons_append, groupInsert]
    rw [if_neg h1, this]

theorem fold_runs : ∀ (rows : List α) (p : String) (c : Nat) (f : α) (os : List α)
    (G : List ((String × Nat) × α × List α)), (∀ g ∈ G, g.1.2 < c) →
    ((adjKeys lab (some p) c rows).foldl (fun gs ka => groupInsert ka.1 ka.2 gs)
      (G ++ [((p, c), f, os)])).map (·.2) = G.map (·.2) ++ attach lab p f os (runs lab rows)
  | [], p, c, f, os, G, _ => by simp [adjKeys, runs, attach]
  | a :: rows, p, c, f, os, G, hG => by
    simp only [adjKeys, List.foldl_cons]
    by_cases h : p = lab a
    · subst h
      simp only [if_true]
      rw [groupInsert_last _ _ _ _ _ (fun g hg heq => by
        have := hG g hg; rw [heq] at this; simp at this)]
      rw [fold_runs rows (lab a) c f (os ++ [a]) G hG]
      congr 1
      simp only [runs]
      cases hr : runs lab rows with
      | nil => simp [attach]
      | cons x rest =>
        obtain ⟨b, bs⟩ := x
        by_cases hb : lab a = lab b
        · simp [attach, hb]
        · simp [attach, hb, Ne.symm hb]
    · have h' : ¬ (some p = some (lab a)) := by simpa using h
      simp only [h', if_false]
      have hG' : ∀ g ∈ G ++ [((p, c), f, os)], g.1.2 < c + 1 := by
        intro g hg
        rcases List.mem_append.1 hg with hg | hg
        · exact (hG g hg).trans (Nat.lt_succ_self _)
        · simp only [List.mem_singleton] at hg; subst hg; simp
      rw [groupInsert_new _ _ _ (fun g hg heq => by
        have := hG' g hg; rw [heq] at this; simp at this)]
      rw [fold_runs rows (lab a) (c + 1) a [] _ hG']
      rw [List.map_append, List.append_assoc]
      congr 1
      simp only [runs]
      cases hr : runs lab rows with
      | nil => simp [attach, Ne.symm h]
      | cons x rest =>
        obtain ⟨b, bs⟩ := x
        by_cases hb : lab a = lab b
        · simp [attach, hb] ; intro h2; exact absurd (hb.trans h2) (Ne.symm h)
        · simp [attach, hb, Ne.symm hb, Ne.symm h]

theorem groupRuns_eq (rows : List α) : groupRuns lab rows = runs lab rows := by
  cases rows with
  | nil => rfl
  | cons a rows =>
    have := fold_runs lab rows (lab a) 1 a [] [] (by simp)
    simp only [groupRuns, adjKeys, List.foldl_cons]
    simp only [reduceCtorEq, if_false, Nat.zero_add, groupInsert]
    rw [List.nil_append] at this
    rw [this]
    simp only [runs]
    cases hr : runs lab rows with
    | nil => simp [attach]
    | cons x rest =>
      obtain ⟨b, bs⟩ := x
      by_cases hb : lab a = lab b
      · simp [attach, hb]
      · simp [attach, hb, Ne.symm hb]

/-- A run as a list. -/
abbrev toBlock (g : α × List α) : List α := g.1 :: g.2

theorem runs_head (a : α) (l : List α) : ∃ bs rest, runs lab (a :: l) = (a, bs) :: rest := by
  simp only [runs]
  cases runs lab l with
  | nil => exact ⟨_, _, rfl⟩
  | cons x rest =>
    obtain ⟨b, bs⟩ := x
    by_cases hb : lab a = lab b
    · simp [hb]
    · simp [hb]

theorem runs_blocks (rows : List α) : Blocks lab rows ((runs lab rows).map toBlock) := by
  induction rows with
  | nil => exact ⟨rfl, by simp [runs], by simp [runs], by simp [runs]⟩
  | cons a rows ih =>
    simp only [runs]
    cases hr : runs lab rows with
    | nil =>
      rw [hr] at ih
      have : rows = [] := by simpa using ih.flatten.symm
      subst this
      exact ⟨rfl, by simp, by simp, by simp⟩
    | cons x rest =>
      obtain ⟨b, bs⟩ := x
      rw [hr] at ih
      by_cases hb : lab a = lab b
      · simp only [hb, if_true]
        refine ⟨?_, ?_, ?_, ?_⟩
        · rw [← ih.flatten]; simp
        · intro blk hblk
          obtain ⟨g, _, rfl⟩ := List.mem_map.1 hblk
          simp [toBlock]
        · intro blk hblk
          simp only [List.map_cons, List.mem_cons] at hblk
          rcases hblk with rfl | hblk
          · have hc := ih.const (b :: bs) (by simp)
            intro r hr r' hr'
            have key : ∀ r ∈ a :: b :: bs, lab r = lab b := by
              intro r hr
              rcases List.mem_cons.1 hr with rfl | hr
              · exact hb
              · exact hc r hr b (by simp)
            rw [key r hr, key r' hr']
          · exact ih.const blk (by simp only [List.map_cons, List.mem_cons]; exact Or.inr hblk)
        · have hd := ih.differ
          simp only [List.map_cons] at hd ⊢
          cases rest with
          | nil => simp
          | cons y rest =>
            simp only [List.map_cons, List.isChain_cons_cons] at hd ⊢
            refine ⟨?_, hd.2⟩
            intro r hr r' hr'
            rcases List.mem_cons.1 hr with rfl | hr
            · rw [hb]; exact hd.1 b (by simp) r' hr'
            · exact hd.1 r hr r' hr'
      · simp only [hb, if_false]
        refine ⟨?_, ?_, ?_, ?_⟩
        · rw [← ih.flatten]; simp
        · intro blk hblk
          obtain ⟨g, _, rfl⟩ := List.mem_map.1 hblk
          simp [toBlock]
        · intro blk hblk
          rw [List.map_cons, List.mem_cons] at hblk
          rcases hblk with rfl | hblk
          · intro r hr r' hr'
            simp only [toBlock, List.mem_singleton] at hr hr'
            rw [hr, hr']
          · exact ih.const blk hblk
        · rw [List.map_cons, List.map_cons, List.isChain_cons_cons]
          refine ⟨?_, ih.differ⟩
          intro r hr r' hr'
          simp only [toBlock, List.mem_singleton] at hr
          subst hr
          have := ih.const (b :: bs) (by simp) b (by simp) r' hr'
          rw [← this]; exact hb

/-- The block decomposition is unique. -/
theorem blocks_unique : ∀ (bs : List (List α)) (rows : List α), Blocks lab rows bs →
    bs = (runs lab rows).map toBlock := by
  have key : ∀ (b : List α) (a : α) (rest : List α), (∀ r ∈ b, lab r = lab a) →
      (∀ x tl, rest = x :: tl → lab x ≠ lab a) →
      runs lab (a :: b ++ rest) = (a, b) :: runs lab rest := by
    intro b
    induction b with
    | nil =>
      intro a rest _ hx
      cases rest with
      | nil => rfl
      | cons x tl =>
        obtain ⟨bs, r, h⟩ := runs_head lab x tl
        have := hx x tl rfl
        simp only [List.cons_append, List.nil_append]
        rw [runs, h]
        simp [Ne.symm this]
    | cons b0 b ih =>
      intro a rest hb hx
      have hb0 : lab b0 = lab a := hb b0 (by simp)
      have := ih b0 rest (fun r hr => by rw [hb r (by simp [hr]), hb0]) (fun x tl h => by
        rw [hb0]; exact hx x tl h)
      rw [List.cons_append, runs, this]
      simp [hb0]
  intro bs
  induction bs with
  | nil =>
    intro rows h
    have : rows = [] := h.flatten.symm
    subst this; rfl
  | cons b bs ih =>
    intro rows h
    have hrec : Blocks lab bs.flatten bs := by
      refine ⟨rfl, fun b hb => h.nonempty b (by simp [hb]), fun b hb => h.const b (by simp [hb]), ?_⟩
      exact h.differ.tail
    have hne := h.nonempty b (by simp)
    cases b with
    | nil => exact absurd rfl hne
    | cons a b =>
      have hfl := h.flatten
      rw [List.flatten_cons] at hfl
      have hkey := key b a bs.flatten
        (fun r hr => h.const (a :: b) (by simp) r (by simp [hr]) a (by simp)) ?_
      · rw [← hfl, hkey, List.map_cons, ← ih _ hrec]
      · intro x tl hx
        cases bs with
        | nil => simp at hx
        | cons b' bs' =>
          have hd := h.differ
          rw [List.isChain_cons_cons] at hd
          have hne' := h.nonempty b' (by simp)
          cases b' with
          | nil => exact absurd rfl hne'
          | cons y ys =>
            rw [List.flatten_cons, List.cons_append] at hx
            injection hx with hx1 _
            subst hx1
            exact (hd.1 a (by simp) y (by simp)).symm

end runs

variable {K : Type} [Field K] [LinearOrder K]

theorem aggRow_summary (g : Row K × List (Row K)) : Summary (toBlock g) (aggRow g) := by
  refine ⟨rfl, rfl, g.2.getLastD g.1, ?_, rfl, rfl⟩
  rw [List.getLast?_cons, List.getLastD_eq_getLast?]

theorem summary_unique {b : List (Row K)} {o o' : Row K} (h : Summary b o) (h' : Summary b o') :
    o = o' := by
  obtain ⟨h1, h2, l, h3, h4, h5⟩ := h
  obtain ⟨g1, g2, l', g3, g4, g5⟩ := h'
  rw [h3] at g3
  injection g3 with g3
  subst g3
  cases o; cases o'
  simp_all

theorem merge_isMerge (rows : List (Row K)) : IsMerge rows (mergeAdjacent rows) := by
  refine ⟨(runs (·.label) rows).map toBlock, runs_blocks _ rows, ?_⟩
  unfold mergeAdjacent
  rw [groupRuns_eq, List.forall₂_map_left_iff, List.forall₂_map_right_iff, List.forall₂_same]
  intro g _
  exact aggRow_summary g

theorem merge_unique {rows out : List (Row K)} (h : IsMerge rows out) :
    out = mergeAdjacent rows := by
  obtain ⟨bs, hb, hs⟩ := h
  obtain ⟨bs', hb', hs'⟩ := merge_isMerge rows
  have e : bs = bs' := by rw [blocks_unique _ _ _ hb, blocks_unique _ _ _ hb']
  subst e
  clear hb hb'
  generalize mergeAdjacent rows = out' at hs'
  induction hs generalizing out' with
  | nil => cases hs'; rfl
  | cons h1 h2 ih =>
    cases hs' with
    | cons g1 g2 => rw [summary_unique h1 g1, ih _ g2]

theorem forall₂_summary_totals {bs : List (List (Row K))} {out : List (Row K)}
    (h : List.Forall₂ Summary bs out) :
    (out.map (·.ice)).sum = (bs.flatten.map (·.ice)).sum ∧
      (out.map (·.ejecta)).sum = (bs.flatten.map (·.ejecta)).sum := by
  induction h with
  | nil => simp
  | cons h1 _ ih => simp [h1.1, h1.2.1, ih.1, ih.2]

/-! ### Depth -/

theorem cumsumFrom_length (l : List K) : ∀ acc, (cumsumFrom acc l).length = l.length := by
  induction l with
  | nil => intro; rfl
  | cons x l ih => intro acc; simp [cumsumFrom, ih]

theorem cumsumFrom_append (l : List K) : ∀ acc x,
    cumsumFrom acc (l ++ [x]) = cumsumFrom acc l ++ [acc + l.sum + x] := by
  induction l with
  | nil => intro acc x; simp [cumsumFrom]
  | cons y l ih => intro acc x; simp [cumsumFrom, ih, add_assoc]

/-- Suffix sums. -/
def suffixSums : List K → List K
  | [] => []
  | x :: xs => (x + xs.sum) :: suffixSums xs

theorem rev_cumsum (l : List K) : (cumsumFrom 0 l.reverse).reverse = suffixSums l := by
  induction l with
  | nil => rfl
  | cons x l ih =>
    rw [List.reverse_cons, cumsumFrom_append, List.reverse_append, ih]
    simp [suffixSums, add_comm]

end MoonPIES
