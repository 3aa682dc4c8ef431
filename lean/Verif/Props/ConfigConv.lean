import Verif.Props.Config

/-!
# C54: what the conversions of configuration values give
-/

namespace MoonPIES

open Spec

/-- A given value that is not of the type of its field is converted. -/
theorem given_cast {env : Env} {kw : List (String × PyVal)} {c : CfgVals}
    (h : makeCfg env kw = .ok c) (hnd : (kw.map (·.1)).Nodup) {d : FieldDecl} (hd : d ∈ cfgFields)
    (hr : ¬ Recomputed d.name) {v : PyVal} (hv : (d.name, v) ∈ kw) (hne : v ≠ .none)
    (ht : ¬ HasType d.type v) : castTo env d.type v = .ok (c d.name) := by
  have := given_field h hnd hd hr hv hne
  unfold enforceOne at this
  rwa [if_neg (by rw [isInstance_iff]; exact ht)] at this

/-- **C54** a list given for a tuple keeps its entries, a dictionary becomes the tuple of its keys and a
string the tuple of its characters: one name given for `coldtrap_names` is taken apart.  Switches and
numbers are refused. -/
theorem C54_tuple (env : Env) (kw : List (String × PyVal)) (hnd : (kw.map (·.1)).Nodup) (d : FieldDecl)
    (hd : d ∈ cfgFields) (hr : ¬ Recomputed d.name) (ht : d.type = .tuple) :
    (∀ c l, makeCfg env kw = .ok c → (d.name, .list l) ∈ kw → c d.name = .tuple l) ∧
    (∀ c s, makeCfg env kw = .ok c → (d.name, .str s) ∈ kw →
      ∃ l, c d.name = .tuple l ∧ l.length = s.length ∧
        ∀ (i : Nat) x, s[i]? = some x → l[i]? = some (.str [x])) ∧
    (∀ c e, makeCfg env kw = .ok c → (d.name, .dict e) ∈ kw →
      ∃ l, c d.name = .tuple l ∧ l.length = e.length ∧
        ∀ (i : Nat) k w, e[i]? = some (k, w) → l[i]? = some (.str k)) ∧
    ∀ v, (d.name, v) ∈ kw → ((∃ b, v = .bool b) ∨ (∃ n, v = .int n) ∨ (∃ q, v = .float q) ∨
      (∃ b, v = .inf b) ∨ v = .nan) → ∀ c, makeCfg env kw ≠ .ok c := by
  refine ⟨?_, ?_, ?_, ?_⟩
  · intro c l h hv
    have := given_cast h hnd hd hr hv (fun e => by cases e) (by rw [ht]; intro e; cases e)
    rw [ht] at this
    injection this with this
    exact this.symm
  · intro c s h hv
    have := given_cast h hnd hd hr hv (fun e => by cases e) (by rw [ht]; intro e; cases e)
    rw [ht] at this
    injection this with this
    refine ⟨_, this.symm, by simp, fun i x hx => ?_⟩
    rw [List.getElem?_map, hx]; rfl
  · intro c e h hv
    have := given_cast h hnd hd hr hv (fun e => by cases e) (by rw [ht]; intro e; cases e)
    rw [ht] at this
    injection this with this
    refine ⟨_, this.symm, by simp, fun i k w hx => ?_⟩
    rw [List.getElem?_map, hx]; rfl
  · intro v hv hcase c h
    rcases hcase with ⟨b, rfl⟩ | ⟨b, rfl⟩ | ⟨b, rfl⟩ | ⟨b, rfl⟩ | rfl <;>
    · have := given_cast h hnd hd hr hv (fun e => by cases e) (by rw [ht]; intro e; cases e)
      rw [ht] at this
      cases this

/-- **C54** what reads as an integer is stored as that integer in an integer field, floats without their
fraction; anything else is refused. -/
theorem C54_integer (env : Env) (kw : List (String × PyVal)) (hnd : (kw.map (·.1)).Nodup)
    (d : FieldDecl) (hd : d ∈ cfgFields) (hr : ¬ Recomputed d.name) (ht : d.type = .int) (v : PyVal)
    (hv : (d.name, v) ∈ kw) (hb : ∀ b, v ≠ .bool b) :
    (∀ c n, makeCfg env kw = .ok c → SeedInt env v n → c d.name = .int n) ∧
    (NotInt env v → v ≠ .none → ∀ c, makeCfg env kw ≠ .ok c) := by
  constructor
  · intro c n h hn
    by_cases hi : ∃ m, v = .int m
    · obtain ⟨m, rfl⟩ := hi
      have hm := C54_unchanged env kw c h hnd d hd hr _ hv (by rw [ht]; constructor)
      cases hn
      exact hm
    · have := given_cast h hnd hd hr hv (by rintro rfl; cases hn) (by
        rw [ht]; intro e
        cases e with
        | int m => exact hi ⟨m, rfl⟩
        | intBool b => exact hb b rfl)
      rw [ht] at this
      unfold castTo at this
      simp only [pyInt_seed hn, Except.map, Except.ok.injEq] at this
      exact this.symm
  · intro hn hne c h
    have := given_cast h hnd hd hr hv hne (by
      rw [ht]; intro e
      cases e with
      | int m => cases hn
      | intBool b => exact hb b rfl)
    rw [ht] at this
    unfold castTo at this
    cases hn <;> simp_all [pyIntOf, Except.map]

/-- **C54** in a float field a switch is 0 or 1, an integer is its value and a string what it reads as;
an integer beyond the floats and a string that is no number are refused. -/
theorem C54_float (env : Env) (kw : List (String × PyVal)) (hnd : (kw.map (·.1)).Nodup)
    (d : FieldDecl) (hd : d ∈ cfgFields) (hr : ¬ Recomputed d.name) (ht : d.type = .float) :
    (∀ c b, makeCfg env kw = .ok c → (d.name, .bool b) ∈ kw → c d.name = .float (if b then 1 else 0)) ∧
    (∀ c (n : Int), makeCfg env kw = .ok c → (d.name, .int n) ∈ kw →
      c d.name = .float n ∧ |n| < 2 ^ 1024) ∧
    (∀ c s, makeCfg env kw = .ok c → (d.name, .str s) ∈ kw →
      ∃ x, env.parseFloat s = some x ∧ c d.name = x.toVal) := by
  refine ⟨?_, ?_, ?_⟩
  · intro c b h hv
    have := given_cast h hnd hd hr hv (fun e => by cases e) (by rw [ht]; intro e; cases e)
    rw [ht] at this
    injection this with this
    exact this.symm
  · intro c n h hv
    have := given_cast h hnd hd hr hv (fun e => by cases e) (by rw [ht]; intro e; cases e)
    rw [ht] at this
    unfold castTo at this
    simp only [] at this
    rw [pyFloat_int] at this
    split at this
    · rename_i hlt
      injection this with this
      refine ⟨this.symm, ?_⟩
      rw [Int.abs_eq_natAbs]
      exact_mod_cast hlt
    · cases this
  · intro c s h hv
    have := given_cast h hnd hd hr hv (fun e => by cases e) (by rw [ht]; intro e; cases e)
    rw [ht] at this
    unfold castTo pyFloat at this
    simp only [] at this
    cases hp : env.parseFloat s with
    | none => rw [hp] at this; cases this
    | some x =>
      rw [hp] at this
      injection this with this
      exact ⟨x, rfl, this.symm⟩

/-- One name for `coldtrap_names` becomes seven names of one letter; a float for the timestep loses its
fraction. -/
example : (makeCfg env0 [("coldtrap_names", .str "Haworth".toList), ("timestep", .float (10000000 + 1 / 2)),
    ("mm_mass_rate", .int 0)]).map (fun c => (c "coldtrap_names", c "timestep", c "mm_mass_rate")) =
    .ok (.tuple [.str ['H'], .str ['a'], .str ['w'], .str ['o'], .str ['r'], .str ['t'], .str ['h']],
      .int 10000000, .float 0) := by decide +kernel

example : (∃ d ∈ cfgFields, d.name = "coldtrap_names" ∧ d.type = .tuple ∧ ¬ Recomputed d.name) ∧
    (∃ d ∈ cfgFields, d.name = "timestep" ∧ d.type = .int ∧ ¬ Recomputed d.name) ∧
    ∃ d ∈ cfgFields, d.name = "mm_mass_rate" ∧ d.type = .float ∧ ¬ Recomputed d.name := by
  simp only [← isPlain_iff]
  decide +kernel

end MoonPIES
