import Mathlib.Logic.Relation
import Verif.Props.SinceTrap

/-!
# C186: cold traps that reach each other
-/

namespace MoonPIES

open Spec

/-- Spec: `x` and `y` are cold traps and the table of `y` names `x`. -/
def Spec.Reached (c : RunCfg) (out : CsvOut) (x y : String) : Prop :=
  x ∈ c.coldtrap_names ∧ y ∈ c.coldtrap_names ∧ ∃ t, out.strat.get y = .ok t ∧ ∃ r ∈ t, Named x r

variable {σ : Type}

/-- **C186** every run that ends at the present with whole timesteps and `strat_after_age`, with plain and distinct names: no cold
trap is named in its own table. Along a chain of cold traps, each named in the table of the next, the ages do not decrease.
Cold traps on a closed chain therefore have one age, and in the table of each of them the layer that names another one has
the time of the mark of the formation age. -/
theorem C186_run (g : Gen σ) (hg : LawfulGen g) (c : RunCfg) (d : RunData) (hc : PhysicalCfg c)
    (hd : PhysicalData c d) (hl : Lunar c d) (hr : Runnable c d) (hmin : 0 ≤ c.thickness_min)
    (hdt : 0 < c.timestep) (n : Nat) (hn : 1 < n) (htol : (n : ℝ) * RunCfg.rtol < 1) (hts : c.timestart = n * c.timestep)
    (hte : c.timeend = 0) (hsaa : c.strat_after_age = true) (hplain : ∀ r ∈ d.craters ++ d.basins, PlainName r.cname)
    (hnames : ((d.craters ++ d.basins).map (·.cname)).Nodup) :
    ∃ out df s, runMain g c d = .ok out ∧ craterBasinList g c d (g.init c.seed) = .ok (df, s) ∧
      (∀ x, ¬ Reached c out x x) ∧
      ∀ q ∈ df, ∀ q' ∈ df, Relation.TransGen (Reached c out) q.rest.crater.cname q'.rest.crater.cname →
        q.age ≤ q'.age ∧
        (Relation.TransGen (Reached c out) q'.rest.crater.cname q.rest.crater.cname → q.age = q'.age ∧
          ∀ t m layers, out.strat.get q'.rest.crater.cname = .ok t → t = m :: layers →
            ∀ r ∈ t, Named q.rest.crater.cname r → m.label = "Formation age" ∧ r.time = m.time) := by
  obtain ⟨out, df, s, hout, h1, h2⟩ := C185_run g hg c d hc hd hl hr hmin hdt n hn htol hts hte hplain hnames
  obtain ⟨out', df', s', hout', h1', h4⟩ := C184_run g hg c d hc hd hl hr hmin hdt n hn htol hts hte hplain hnames
  have hn1 : (1 : ℝ) < n := by exact_mod_cast hn
  have hlt : c.timestep < c.timestart := by rw [hts]; nlinarith
  have hsp : c.timestep ≤ c.timestart - c.timeend := by rw [hte, sub_zero]; exact hlt.le
  obtain ⟨df2, s2, time, k1, -, k3⟩ := C177_run g hg c d hc hd hl hr.nodup hmin hdt hlt hsp hplain hnames out hout
  rw [hout] at hout'
  injection hout' with e
  subst e
  rw [h1] at h1' k1
  injection h1' with h1'
  injection h1' with h1' _
  subst h1'
  have hdn := table_names_nodup g hg c d hd.sorted hnames df _ _ h1
  have hinj : ∀ q ∈ df, ∀ q' ∈ df, q.rest.crater.cname = q'.rest.crater.cname → q = q' :=
    fun q hq q' hq' h => List.inj_on_of_nodup_map hdn hq hq' h
  -- one step of a chain
  have step : ∀ q ∈ df, ∀ q' ∈ df, Reached c out q.rest.crater.cname q'.rest.crater.cname → q.age ≤ q'.age := by
    rintro q hq q' hq' ⟨-, y1, t, y2, y3⟩
    obtain ⟨trap, t1, t2, table, t3, t4, -⟩ := h2 _ y1
    obtain rfl := hinj _ t1 _ hq' t2
    rw [y2] at t3
    injection t3 with t3
    subst t3
    obtain ⟨x, -, x2⟩ := t4 q hq
    exact (x2.1 y3).2.2.2 hsaa
  have chain : ∀ x y, Relation.TransGen (Reached c out) x y → ∀ q ∈ df, ∀ q' ∈ df, q.rest.crater.cname = x →
      q'.rest.crater.cname = y → q.age ≤ q'.age := by
    intro x y h
    induction h with
    | single h =>
      rintro q hq q' hq' rfl rfl
      exact step q hq q' hq' h
    | tail _ h ih =>
      rintro q hq q' hq' rfl rfl
      obtain ⟨trap, t1, t2, -⟩ := h2 _ h.1
      refine (ih q hq trap t1 rfl t2).trans (step trap t1 q' hq' ?_)
      rw [t2]
      exact h
  refine ⟨out, df, s, hout, h1, ?_, ?_⟩
  · rintro x ⟨y1, -, t, y2, r, y3, y4⟩
    obtain ⟨-, -, -, table, t3, t4, -⟩ := k3 x y1
    rw [y2] at t3
    injection t3 with t3
    subst t3
    exact t4 r y3 y4
  · intro q hq q' hq' h
    refine ⟨chain _ _ h q hq q' hq' rfl rfl, ?_⟩
    intro h'
    have hage := le_antisymm (chain _ _ h q hq q' hq' rfl rfl) (chain _ _ h' q' hq' q hq rfl rfl)
    refine ⟨hage, ?_⟩
    intro t m layers y1 y2 r y3 y4
    have hq'n : q'.rest.crater.cname ∈ c.coldtrap_names := by
      cases h with
      | single h => exact h.2.1
      | tail _ h => exact h.2.1
    obtain ⟨trap, t1, t2, table, t3, t4, t5⟩ := h2 _ hq'n
    obtain rfl := hinj _ t1 _ hq' t2
    rw [y1] at t3
    injection t3 with t3
    subst t3
    obtain ⟨table', u1, u2⟩ := h4 _ hq'n
    rw [y1] at u1
    injection u1 with u1
    subst u1
    obtain ⟨m', layers', m1, m2, -, -, m3⟩ := t5 hsaa
    rw [y2] at m1
    injection m1 with m1 _
    subst m1
    obtain ⟨x, -, x2⟩ := t4 q hq
    have hub := (x2.1 ⟨r, y3, y4⟩).2.2.1
    refine ⟨m2, ?_⟩
    rw [(u2 q hq r y3 y4).1, m3, ← hage, min_eq_left hub]

/-- Haworth and Shoemaker are in reach of each other. -/
theorem mutual_reach : InReach "Haworth" "Shoemaker" ∧ InReach "Shoemaker" "Haworth" := by
  unfold InReach
  decide +kernel

/-- **C186** every run on the shipped files with the default ejecta scaling, whole timesteps, `strat_after_age` and any seed: of two
cold traps in reach of each other whose ages are among the times of the run, the younger is named in the table of the other, and
each is named in the table of the other exactly if they have one age. -/
theorem C186_shipped (nk : List (ℝ × ℝ)) (sortAges : CraterTable → CraterTable) (sortNk : List (ℝ × ℝ) → List (ℝ × ℝ))
    (setOrder : List (List Char) → List (List Char)) (g : Gen σ) (hg : LawfulGen g) (hs : Spec.SortDesc sortAges) (c : RunCfg)
    (hc : PhysicalCfg c) (hd : PhysicalData c (shippedData nk sortAges sortNk setOrder))
    (hl : Lunar c (shippedData nk sortAges sortNk setOrder))
    (hr : Runnable c (shippedData nk sortAges sortNk setOrder)) (he : c.ej = EjCfg.default)
    (hnm : ∀ n ∈ c.coldtrap_names, n ∈ (RunCfg.default 1).coldtrap_names) (hmin : 0 ≤ c.thickness_min)
    (hmin' : c.thickness_min ≤ 0.001) (hdt : 0 < c.timestep) (n : Nat) (hn : 1 < n) (htol : (n : ℝ) * RunCfg.rtol < 1)
    (hts : c.timestart = n * c.timestep) (hte : c.timeend = 0) (hsaa : c.strat_after_age = true) :
    ∃ out df s, runMain g c (shippedData nk sortAges sortNk setOrder) = .ok out ∧
      craterBasinList g c (shippedData nk sortAges sortNk setOrder) (g.init c.seed) = .ok (df, s) ∧
      ∀ x ∈ c.coldtrap_names, ∀ y ∈ c.coldtrap_names, InReach x y → InReach y x →
        ∃ a ∈ df, ∃ b ∈ df, a.rest.crater.cname = x ∧ b.rest.crater.cname = y ∧
          (c.timestep ≤ a.age → a.age ≤ c.timestart → c.timestep ≤ b.age → b.age ≤ c.timestart →
            (Reached c out x y ↔ a.age ≤ b.age) ∧ (Reached c out y x ↔ b.age ≤ a.age) ∧
            (Reached c out x y ∧ Reached c out y x ↔ a.age = b.age)) := by
  obtain ⟨out, df, s, hout, h1, h2⟩ := C185_shipped nk sortAges sortNk setOrder g hg hs c hc hd hl hr he hnm hmin hmin' hdt n hn
    htol hts hte hsaa
  refine ⟨out, df, s, hout, h1, ?_⟩
  intro x hx y hy hxy hyx
  obtain ⟨a, a1, a2, ta, a3, a4⟩ := h2 x hx
  obtain ⟨b, b1, b2, tb, b3, b4⟩ := h2 y hy
  refine ⟨a, a1, b, b1, a2, b2, ?_⟩
  intro l1 u1 l2 u2
  have key : ∀ {x y : String} {a b : CraterAge ℝ CraterCols} {t : List (StratRow ℝ)}, x ∈ c.coldtrap_names →
      y ∈ c.coldtrap_names → out.strat.get y = .ok t → c.timestep ≤ a.age → a.age ≤ c.timestart → InReach x y →
      ((∃ r ∈ t, Named x r) ↔ InReach x y ∧ c.timestep ≤ a.age ∧ a.age ≤ min b.age c.timestart) →
      (Reached c out x y ↔ a.age ≤ b.age) := by
    intro x y a b t hx hy ht l u hin hiff
    constructor
    · rintro ⟨-, -, t', h3, h4⟩
      rw [ht] at h3
      injection h3 with h3
      subst h3
      exact (le_min_iff.1 (hiff.1 h4).2.2).1
    · intro hab
      exact ⟨hx, hy, t, ht, hiff.2 ⟨hin, l, le_min hab u⟩⟩
  have p1 := key (b := b) hx hy b3 l1 u1 hxy (by have := b4 a a1; rwa [a2] at this)
  have p2 := key (b := a) hy hx a3 l2 u2 hyx (by have := a4 b b1; rwa [b2] at this)
  refine ⟨p1, p2, ?_⟩
  rw [p1, p2]
  exact ⟨fun h => le_antisymm h.1 h.2, fun h => ⟨h.le, h.ge⟩⟩

/-- C186 holds on the shipped files for every seed of the default configuration, where Haworth and Shoemaker are cold traps. -/
example (seed : Int) := C186_shipped [] sortDesc id id constGen constGen_lawful sortDesc_spec
  (RunCfg.default seed) (default_physical seed) (default_data _ _ _ _ sortDesc_spec seed) (default_lunar _ _ _ _ seed)
  (default_runnable _ _ _ _ seed) rfl (fun _ h => h) (by norm_num [RunCfg.default]) (by norm_num [RunCfg.default])
  (by norm_num [RunCfg.default]) 425 (by norm_num) (by norm_num [RunCfg.rtol]) (by norm_num [RunCfg.default])
  (by norm_num [RunCfg.default]) (by norm_num [RunCfg.default])

/-- C186 holds for every seed of the default configuration. -/
example (seed : Int) := C186_run constGen constGen_lawful _ _ (default_physical seed)
  (default_data [] sortDesc id id sortDesc_spec seed)
  (default_lunar [] sortDesc id id seed) (default_runnable [] sortDesc id id seed)
  (by norm_num [RunCfg.default]) (by norm_num [RunCfg.default]) 425 (by norm_num) (by norm_num [RunCfg.rtol])
  (by norm_num [RunCfg.default]) (by norm_num [RunCfg.default]) (by norm_num [RunCfg.default]) (shipped_plain _ _ _ _) (by
    have := file_names.1
    simp only [shippedData, List.map_append, List.map_map, Function.comp_def] at this ⊢
    exact this)

end MoonPIES
