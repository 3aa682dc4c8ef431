import Verif.Lemmas.DistFig
import Verif.Props.AgesFig

/-!
# C118: the figure of ballistic sedimentation with distance
-/

namespace MoonPIES

open Real InnerProductGeometry Spec

variable {σ : Type}

/-- The configuration the figure uses. -/
def RunCfg.noLimit (c : RunCfg) : RunCfg := { c with ej_threshold := -1 }

theorem noLimit_physical {c : RunCfg} (h : PhysicalCfg c) : PhysicalCfg c.noLimit := by
  cases h; constructor <;> assumption

theorem noLimit_data {c : RunCfg} {d : RunData} (h : PhysicalData c d) : PhysicalData c.noLimit d := by
  cases h; constructor <;> assumption

theorem noLimit_runnable {c : RunCfg} {d : RunData} (h : Runnable c d) : Runnable c.noLimit d := by
  cases h; constructor <;> assumption

/-- A point of the figure. -/
theorem distPoints_get {c : RunCfg} {df : CraterTable} {fig : DistFigure}
    (h : distFigureOf c df = .ok fig) (i : Nat) (r : CraterAge ℝ CraterCols) (hi : df[i]? = some r) :
    ∃ row, fig.points[i]? = some row ∧ row.length = c.coldtrap_names.length ∧
      ∀ (j : Nat) n, c.coldtrap_names[j]? = some n → ∃ p, row[j]? = some p ∧
        coldtrapDist c.ej (df.map (·.rest.crater)) r.rest.crater n = .ok p.dist ∧
        ejThickness c.ej p.dist r.rest.crater.rad = .fin p.thick ∧
        p.depth = (mixingRatio c.mixing_ratio_petro c.mixing_ratio_a c.mixing_ratio_b p.dist).map
          (fun m => -p.thick * m) := by
  obtain ⟨dists, thick, a, arow, h1, h2, -, -, h3, -⟩ := distFigureOf_inv h
  obtain ⟨l1, i1⟩ := mapM_ok_inv _ _ _ h1
  obtain ⟨l2, i2⟩ := mapM_ok_inv _ _ _ h2
  obtain ⟨ds, e1, e2⟩ := i1 i r.rest.crater (by rw [List.getElem?_map, hi]; rfl)
  obtain ⟨th, e3, e4⟩ := i2 i (r, ds) (by rw [List.getElem?_zip_eq_some]; exact ⟨hi, e1⟩)
  obtain ⟨l3, i3⟩ := mapM_ok_inv _ _ _ e2
  obtain ⟨l4, i4⟩ := mapM_ok_inv _ _ _ e4
  refine ⟨_, by rw [h3, List.getElem?_zipWith, e1, e3], ?_, ?_⟩
  · simp [l4, l3]
  · intro j n hj
    obtain ⟨o, e5, e6⟩ := i3 j n hj
    obtain ⟨x, e7, e8⟩ := i4 j o e5
    refine ⟨⟨o, x, (mixingRatio c.mixing_ratio_petro c.mixing_ratio_a c.mixing_ratio_b o).map
      (fun m => -x * m)⟩, ?_, e6, finiteOf_inv e8, rfl⟩
    have hz : (ds.zip (ds.map (mixingRatio c.mixing_ratio_petro c.mixing_ratio_a
        c.mixing_ratio_b)))[j]? = some (o, mixingRatio c.mixing_ratio_petro c.mixing_ratio_a
        c.mixing_ratio_b o) := by
      rw [List.getElem?_zip_eq_some, List.getElem?_map, e5]; exact ⟨rfl, rfl⟩
    rw [List.getElem?_zipWith, hz, e7]

/-- A line for each row. -/
theorem distPoints_length {c : RunCfg} {df : CraterTable} {fig : DistFigure}
    (h : distFigureOf c df = .ok fig) : fig.points.length = df.length := by
  obtain ⟨dists, thick, a, arow, h1, h2, -, -, h3, -⟩ := distFigureOf_inv h
  obtain ⟨l1, -⟩ := mapM_ok_inv _ _ _ h1
  obtain ⟨l2, -⟩ := mapM_ok_inv _ _ _ h2
  rw [List.length_map] at l1
  rw [h3, List.length_zipWith, l2, List.length_zip, l1]
  simp

/-- The axis is long enough. -/
theorem dist_le_xmax {c : RunCfg} {df : CraterTable} {fig : DistFigure}
    (h : distFigureOf c df = .ok fig) (i : Nat) (r : CraterAge ℝ CraterCols) (hi : df[i]? = some r)
    (hb : r.rest.crater.isbasin = false) (row : List DistPoint) (hrow : fig.points[i]? = some row)
    (p : DistPoint) (hp : p ∈ row) (x : ℝ) (hx : p.dist = some x) : x ≤ fig.xmax := by
  obtain ⟨dists, thick, a, arow, i1, -, -, -, -, -, -, i8⟩ := distFigureOf_inv h
  obtain ⟨row', w1, w2, w3⟩ := distPoints_get h i r hi
  rw [hrow] at w1; cases w1
  obtain ⟨j, hj⟩ := List.mem_iff_getElem?.1 hp
  have hjl : j < c.coldtrap_names.length := by rw [← w2]; exact (List.getElem?_eq_some_iff.1 hj).1
  obtain ⟨p', v1, v2, -⟩ := w3 j _ (List.getElem?_eq_getElem hjl)
  rw [hj] at v1; cases v1
  obtain ⟨ml, mi⟩ := mapM_ok_inv _ _ _ i1
  obtain ⟨ds, m1, m2⟩ := mi i r.rest.crater (by rw [List.getElem?_map, hi]; rfl)
  obtain ⟨o, o1, o2⟩ := (mapM_ok_inv _ _ _ m2).2 j _ (List.getElem?_eq_getElem hjl)
  rw [v2] at o2
  injection o2 with o2
  have hmem : some x ∈ (((df.zip dists).filter fun p => !p.1.rest.crater.isbasin).map
      (·.2)).flatten := by
    refine List.mem_flatten.2 ⟨ds, List.mem_map.2 ⟨(r, ds), List.mem_filter.2 ⟨?_, ?_⟩, rfl⟩, ?_⟩
    · exact List.mem_iff_getElem?.2 ⟨i, List.getElem?_zip_eq_some.2 ⟨hi, m1⟩⟩
    · simp [hb]
    · rw [← hx, o2]; exact List.mem_of_getElem? o1
  obtain ⟨m, hm1, hm2⟩ := nanMax_some ⟨x, hmem⟩
  rw [i8] at hm1
  injection hm1 with hm1
  injection hm1 with hm1
  rw [hm1]
  exact hm2 x hmem

/-- **C118** without a crater called Amundsen the figure is not drawn. -/
theorem C118_no_amundsen (c : RunCfg) (df : CraterTable)
    (h : ∀ r ∈ df, r.rest.crater.cname ≠ "Amundsen") : ∃ e, distFigureOf c df = .error e := by
  cases hf : distFigureOf c df with
  | error e => exact ⟨e, rfl⟩
  | ok fig =>
    obtain ⟨dists, thick, a, arow, -, -, h1, -⟩ := distFigureOf_inv hf
    obtain ⟨r, h2, h3⟩ := rowIndex_ok h1
    exact absurd h3 (h r (List.mem_of_getElem? h2))

section shipped

variable (nk : List (ℝ × ℝ)) (sortAges : CraterTable → CraterTable)
  (sortNk : List (ℝ × ℝ) → List (ℝ × ℝ)) (setOrder : List (List Char) → List (List Char))

theorem some_crater : (∀ e ∈ craterReach, ∃ q ∈ craterFile, q.cname ∈ e.2) ∧
    (∃ q ∈ craterFile, q.cname = "Amundsen") := by decide +kernel

/-- The figure is drawn. -/
theorem distFigure_parts (g : Gen σ) (hg : LawfulGen g) (hs : Spec.SortDesc sortAges) (c : RunCfg)
    (hc : PhysicalCfg c) (hd : PhysicalData c (shippedData nk sortAges sortNk setOrder))
    (hr : Runnable c (shippedData nk sortAges sortNk setOrder))
    (hn : ∀ n ∈ c.coldtrap_names, n ∈ (RunCfg.default 1).coldtrap_names) (e1 e2 : σ) :
    ∃ fig df s', distFigure g c (shippedData nk sortAges sortNk setOrder) e1 e2 = .ok fig ∧
      craterBasinList g.pair c.noLimit (shippedData nk sortAges sortNk setOrder) (e1, e2) =
        .ok (df, s') ∧
      GoodTable c.noLimit (shippedData nk sortAges sortNk setOrder) df ∧
      distFigureOf c.noLimit df = .ok fig := by
  obtain ⟨df, s', hdf, p1, p2⟩ := craterBasinList_ok g.pair (pair_lawful hg) (noLimit_physical hc)
    (noLimit_data hd) (noLimit_runnable hr) (e1, e2)
  have hgt : GoodTable c.noLimit _ df := ⟨p1, p2⟩
  have hrows := table_rowOf nk sortAges sortNk setOrder g.pair hs c.noLimit df _ _ hdf hgt
  have hsplit := table_split nk sortAges sortNk setOrder c.noLimit df hgt hrows
  have hfind : ∀ q ∈ craterFile, ∃ r ∈ df, r.rest.crater.isbasin = false ∧
      r.rest.crater.cname = q.cname := by
    intro q hq
    have := hsplit.2.mem_iff.2 (List.mem_map_of_mem (f := (·.cname)) hq)
    obtain ⟨r, h1, h2⟩ := List.mem_map.1 this
    obtain ⟨h1, h3⟩ := List.mem_filter.1 h1
    exact ⟨r, h1, by simpa using h3, h2⟩
  have ha : ∃ r ∈ df, r.rest.crater.cname = "Amundsen" := by
    obtain ⟨q, q1, q2⟩ := some_crater.2
    obtain ⟨r, h1, -, h2⟩ := hfind q q1
    exact ⟨r, h1, h2.trans q2⟩
  have hx : ∃ r ∈ df, r.rest.crater.isbasin = false ∧ ∃ n ∈ c.noLimit.coldtrap_names, ∃ x,
      coldtrapDist c.noLimit.ej (df.map (·.rest.crater)) r.rest.crater n = .ok (some x) := by
    obtain ⟨n, hnm⟩ := List.exists_mem_of_ne_nil _ hr.names
    obtain ⟨e, he, hen⟩ := List.mem_map.1 (reach_names.mem_iff.1 (hn n hnm))
    obtain ⟨q, q1, q2⟩ := some_crater.1 e he
    obtain ⟨r, h1, h2, h3⟩ := hfind q q1
    obtain ⟨-, t, ⟨t1, t2⟩, hiff⟩ := shipped_dist nk sortAges sortNk setOrder g.pair hs c.noLimit
      (noLimit_runnable hr) hn df _ _ hdf hgt r h1 q (List.mem_append_left _ q1) h3 n hnm
    have hreach := ((C112_reach t t1 (by rw [t2]; exact hn n hnm)).1 q q1).2
      ⟨e, List.mem_append_left _ he, by rw [t2, hen], q2⟩
    obtain ⟨v1, p, v2, v3, -⟩ := hreach
    refine ⟨r, h1, h2, n, hnm, _, (hiff _).2 ⟨⟨v1, ⟨p, v2, rfl⟩, v3⟩, Or.inl ?_⟩⟩
    unfold thresholdOf
    rw [h2]
    show (-1 : ℝ) < 0
    norm_num
  obtain ⟨fig, hfig⟩ := distFigureOf_exists (noLimit_physical hc) (noLimit_runnable hr) hgt ha hx
  refine ⟨fig, df, s', ?_, hdf, hgt, hfig⟩
  have hmap := craterList_none g c.noLimit (shippedData nk sortAges sortNk setOrder) e1 e2
  rw [hdf] at hmap
  obtain ⟨r', hr'⟩ : ∃ r', craterBasinListRng g c.noLimit (shippedData nk sortAges sortNk setOrder) e1
      e2 .none = .ok (df, r') := by
    cases h : craterBasinListRng g c.noLimit (shippedData nk sortAges sortNk setOrder) e1 e2 .none with
    | error x => rw [h] at hmap; cases hmap
    | ok p =>
      rw [h] at hmap
      injection hmap with hmap
      simp only at hmap
      exact ⟨p.2, by rw [← hmap]⟩
  unfold distFigure
  change (liftPy (craterBasinListRng g c.noLimit (shippedData nk sortAges sortNk setOrder) e1 e2
    .none)).bind (fun p => distFigureOf c.noLimit p.1) = _
  rw [hr']
  exact hfig

theorem localParts_eq {c : RunCfg} (hm : c.mixing_ratio_petro = true ∧ c.mixing_ratio_a = 0.0183 ∧
    c.mixing_ratio_b = 0.87) (x : ℝ) :
    mixingRatio c.mixing_ratio_petro c.mixing_ratio_a c.mixing_ratio_b (some x) =
      some (localParts x) := by
  obtain ⟨h1, h2, h3⟩ := hm
  rw [h1, h2, h3]
  unfold mixingRatio localParts
  simp only [if_true]
  rw [show x * 1e-3 = x / 1000 by ring]
  by_cases h : 0.0183 * (x / 1000) ^ (0.87 : ℝ) ≤ 5
  · rw [if_neg (not_lt.2 h), if_pos h]
  · rw [if_pos (not_le.1 h), if_neg h]
    congr 1; ring

/-- The row of a crater. -/
theorem crater_row (g : Gen σ) (hs : Spec.SortDesc sortAges) (c : RunCfg)
    (hr : Runnable c (shippedData nk sortAges sortNk setOrder)) (he : c.ej = EjCfg.default)
    (hm : c.mixing_ratio_petro = true ∧ c.mixing_ratio_a = 0.0183 ∧ c.mixing_ratio_b = 0.87)
    (hn : ∀ n ∈ c.coldtrap_names, n ∈ (RunCfg.default 1).coldtrap_names) (df : CraterTable) (s s' : σ)
    (hdf : craterBasinList g c.noLimit (shippedData nk sortAges sortNk setOrder) s = .ok (df, s'))
    (hgt : GoodTable c.noLimit (shippedData nk sortAges sortNk setOrder) df) (fig : DistFigure)
    (hfig : distFigureOf c.noLimit df = .ok fig) (q : FileRow) (hq : q ∈ craterFile) (i : Nat)
    (r : CraterAge ℝ CraterCols) (hi : df[i]? = some r) (r2 : r.rest.crater.cname = q.cname)
    (r3 : r.rest.crater.isbasin = false) :
    ∃ row, fig.points[i]? = some row ∧ CraterPoints c.coldtrap_names q row := by
  have hej : c.noLimit.ej = { EjCfg.default with ej_threshold := -1 } := by
    rw [← he]; rfl
  obtain ⟨row, p1, p2, p3⟩ := distPoints_get hfig i r hi
  refine ⟨row, p1, p2, ?_⟩
  intro j n hj
  obtain ⟨p, w1, w2, w3, w4⟩ := p3 j n hj
  obtain ⟨hrad, t, ht, hiff⟩ := shipped_dist nk sortAges sortNk setOrder g hs c.noLimit
    (noLimit_runnable hr) hn df _ _ hdf hgt r (List.mem_of_getElem? hi) q
    (List.mem_append_left _ hq) r2 n (List.mem_of_getElem? hj)
  have hthr : thresholdOf c.noLimit.ej r.rest.crater < 0 := by
    unfold thresholdOf
    rw [r3, hej]
    simp
  have hout : ∀ x, p.dist = some x ↔ Outside q t x := by
    intro x
    have h := hiff x
    rw [w2, Except.ok.injEq] at h
    rw [h]
    exact ⟨fun h => h.1, fun h => ⟨h, Or.inl hthr⟩⟩
  refine ⟨t, p, ht, w1, hout, ?_⟩
  intro x hx
  have hx0 := ((hout x).1 hx).2.2
  obtain ⟨k1, k2⟩ := file_sizes.1 q hq
  have k1' : (18 : ℝ) < q.diam := by exact_mod_cast k1
  have k2' : (q.diam : ℝ) < 140 := by exact_mod_cast k2
  rw [hx, hej, hrad, thick_complex _ x _ (by linarith) (by linarith)
    (by norm_num [EjCfg.default]; linarith) (by norm_num [EjCfg.default]; linarith),
    Flt.fin.injEq] at w3
  have ht : p.thick = complexThick q x := by rw [← w3]; rfl
  refine ⟨ht, ?_⟩
  rw [w4, hx, ht, localParts_eq (c := c.noLimit) hm x]
  simp

/-- The row of a basin. -/
theorem basin_row (g : Gen σ) (hs : Spec.SortDesc sortAges) (c : RunCfg)
    (hr : Runnable c (shippedData nk sortAges sortNk setOrder)) (he : c.ej = EjCfg.default)
    (hm : c.mixing_ratio_petro = true ∧ c.mixing_ratio_a = 0.0183 ∧ c.mixing_ratio_b = 0.87)
    (hn : ∀ n ∈ c.coldtrap_names, n ∈ (RunCfg.default 1).coldtrap_names) (df : CraterTable) (s s' : σ)
    (hdf : craterBasinList g c.noLimit (shippedData nk sortAges sortNk setOrder) s = .ok (df, s'))
    (hgt : GoodTable c.noLimit (shippedData nk sortAges sortNk setOrder) df) (fig : DistFigure)
    (hfig : distFigureOf c.noLimit df = .ok fig) (q : FileRow) (hq : q ∈ basinFile) (i : Nat)
    (r : CraterAge ℝ CraterCols) (hi : df[i]? = some r) (r2 : r.rest.crater.cname = q.cname)
    (r3 : r.rest.crater.isbasin = true) :
    ∃ row, fig.points[i]? = some row ∧ BasinPoints c.coldtrap_names q row := by
  have hej : c.noLimit.ej = { EjCfg.default with ej_threshold := -1 } := by
    rw [← he]; rfl
  obtain ⟨row, p1, p2, p3⟩ := distPoints_get hfig i r hi
  refine ⟨row, p1, p2, ?_⟩
  intro j n hj
  obtain ⟨p, w1, w2, w3, w4⟩ := p3 j n hj
  obtain ⟨hrad, t, ht, hiff⟩ := shipped_dist nk sortAges sortNk setOrder g hs c.noLimit
    (noLimit_runnable hr) hn df _ _ hdf hgt r (List.mem_of_getElem? hi) q
    (List.mem_append_right _ hq) r2 n (List.mem_of_getElem? hj)
  have hthr : thresholdOf c.noLimit.ej r.rest.crater = 5 := by
    unfold thresholdOf
    rw [r3, hej]
    simp [EjCfg.default]
  have hout : ∀ x, p.dist = some x ↔ Outside q t x ∧ x < 5 * (q.diam * 500) := by
    intro x
    have h := hiff x
    rw [w2, Except.ok.injEq, hthr] at h
    rw [h]
    constructor
    · rintro ⟨a, b | b⟩
      · norm_num at b
      · exact ⟨a, b⟩
    · rintro ⟨a, b⟩; exact ⟨a, Or.inr b⟩
  refine ⟨t, p, ht, w1, hout, ?_⟩
  intro x hx
  obtain ⟨⟨-, -, hx0⟩, hx5⟩ := (hout x).1 hx
  obtain ⟨k1, k2⟩ := file_sizes.2 q hq
  have k1' : (280 : ℝ) ≤ q.diam := by exact_mod_cast k1
  have k2' : (q.diam : ℝ) ≤ 1400 := by exact_mod_cast k2
  obtain ⟨th, t1, t2⟩ := basin_thick { EjCfg.default with ej_threshold := -1 } x (q.diam * 500)
    (by norm_num [EjCfg.default]) rfl (by norm_num [EjCfg.default]) rfl rfl
    (by linarith) (by linarith) hx0 hx5
  rw [hx, hej, hrad, t1, Flt.fin.injEq] at w3
  refine ⟨by rw [← w3]; exact t2, ?_, ?_⟩
  · have h := basinEjecta_of (cfg := { EjCfg.default with ej_threshold := -1 }) rfl rfl
      (by norm_num [EjCfg.default]) rfl rfl rfl x (q.diam * 500) th (by linarith) (by linarith) hx0.le
      (by linarith [Real.pi_gt_d2]) t1
    rwa [show (q.diam : ℝ) * 500 * 2 = q.diam * 1000 by ring, w3] at h
  rw [w4, hx, localParts_eq (c := c.noLimit) hm x]
  simp

/-- **C118** the figure is drawn for the shipped files and any of the default cold traps.  Each listed
crater has a row of points: one for each cold trap outside it, at its distance along the surface
without an outer limit, at the thickness of ejecta of a complex crater and, below the surface, at the
depth they mix to.  Each listed basin has a row for the cold traps within five radii.  The axis is long
enough for all craters. -/
theorem C118_points (g : Gen σ) (hg : LawfulGen g) (hs : Spec.SortDesc sortAges) (c : RunCfg)
    (hc : PhysicalCfg c) (hd : PhysicalData c (shippedData nk sortAges sortNk setOrder))
    (hr : Runnable c (shippedData nk sortAges sortNk setOrder)) (he : c.ej = EjCfg.default)
    (hm : c.mixing_ratio_petro = true ∧ c.mixing_ratio_a = 0.0183 ∧ c.mixing_ratio_b = 0.87)
    (hn : ∀ n ∈ c.coldtrap_names, n ∈ (RunCfg.default 1).coldtrap_names) (e1 e2 : σ) :
    ∃ fig, distFigure g c (shippedData nk sortAges sortNk setOrder) e1 e2 = .ok fig ∧
      fig.points.length = craterFile.length + basinFile.length ∧
      (∀ q ∈ craterFile, ∃ row ∈ fig.points, CraterPoints c.coldtrap_names q row ∧
        ∀ p ∈ row, ∀ x, p.dist = some x → x ≤ fig.xmax) ∧
      (∀ q ∈ basinFile, ∃ row ∈ fig.points, BasinPoints c.coldtrap_names q row) := by
  obtain ⟨fig, df, s', h1, hdf, hgt, hfig⟩ := distFigure_parts nk sortAges sortNk setOrder g hg hs c hc
    hd hr hn e1 e2
  have hrows := table_rowOf nk sortAges sortNk setOrder g.pair hs c.noLimit df _ _ hdf hgt
  have hsplit := table_split nk sortAges sortNk setOrder c.noLimit df hgt hrows
  refine ⟨fig, h1, ?_, ?_, ?_⟩
  · rw [distPoints_length hfig]
    have := hgt.perm.length_eq
    simpa [shippedData] using this
  · intro q hq
    have hmem := hsplit.2.mem_iff.2 (List.mem_map_of_mem (f := (·.cname)) hq)
    obtain ⟨r, r1, r2⟩ := List.mem_map.1 hmem
    obtain ⟨r1, r3⟩ := List.mem_filter.1 r1
    have r3 : r.rest.crater.isbasin = false := by simpa using r3
    obtain ⟨i, hi⟩ := List.mem_iff_getElem?.1 r1
    obtain ⟨row, w1, w2⟩ := crater_row nk sortAges sortNk setOrder g.pair hs c hr he hm hn df _ _ hdf hgt
      fig hfig q hq i r hi r2 r3
    refine ⟨row, List.mem_of_getElem? w1, w2, ?_⟩
    intro p hp x hx
    exact dist_le_xmax hfig i r hi r3 row w1 p hp x hx
  · intro q hq
    have hmem := hsplit.1.mem_iff.2 (List.mem_map_of_mem (f := (·.cname)) hq)
    obtain ⟨r, r1, r2⟩ := List.mem_map.1 hmem
    obtain ⟨r1, r3⟩ := List.mem_filter.1 r1
    have r3 : r.rest.crater.isbasin = true := by simpa using r3
    obtain ⟨i, hi⟩ := List.mem_iff_getElem?.1 r1
    obtain ⟨row, w1, w2⟩ := basin_row nk sortAges sortNk setOrder g.pair hs c hr he hm hn df _ _ hdf hgt
      fig hfig q hq i r hi r2 r3
    exact ⟨row, List.mem_of_getElem? w1, w2⟩

/-- **C118** each vertical line is at the distance from Amundsen to the cold trap of its label, if this
is one of the cold traps of the configuration.  If it is not, the line has the label but is at the
distance to the first cold trap. -/
theorem C118_vlines (g : Gen σ) (hg : LawfulGen g) (hs : Spec.SortDesc sortAges) (c : RunCfg)
    (hc : PhysicalCfg c) (hd : PhysicalData c (shippedData nk sortAges sortNk setOrder))
    (hr : Runnable c (shippedData nk sortAges sortNk setOrder))
    (hn : ∀ n ∈ c.coldtrap_names, n ∈ (RunCfg.default 1).coldtrap_names) (e1 e2 : σ) :
    ∃ fig, distFigure g c (shippedData nk sortAges sortNk setOrder) e1 e2 = .ok fig ∧
      List.Forall₂ (fun n (l : String × Option ℝ) => l.1 = "Amundsen->" ++ n ∧
        (∀ x, l.2 = some x → x ≤ fig.xmax) ∧
        ∃ target q t, (n ∈ c.coldtrap_names → target = n) ∧
          (n ∉ c.coldtrap_names → c.coldtrap_names.head? = some target) ∧
          TrapNamed "Amundsen" q ∧ TrapNamed target t ∧ ∀ x, l.2 = some x ↔ Outside q t x)
        ["Faustini", "Shoemaker", "Haworth"] fig.vlines := by
  obtain ⟨fig, df, s', h1, hdf, hgt, hfig⟩ := distFigure_parts nk sortAges sortNk setOrder g hg hs c hc
    hd hr hn e1 e2
  refine ⟨fig, h1, ?_⟩
  have hrows := table_rowOf nk sortAges sortNk setOrder g.pair hs c.noLimit df _ _ hdf hgt
  obtain ⟨dists, thick, a, arow, i1, i2, i3, i4, i5, i6, i7, i8⟩ := distFigureOf_inv hfig
  obtain ⟨r, r1, r2⟩ := rowIndex_ok i3
  obtain ⟨q, q1, q2, -⟩ := hrows r (List.mem_of_getElem? r1)
  have hbas : ∀ b ∈ basinFile, b.cname ≠ "Amundsen" := by decide +kernel
  have q3 : q ∈ craterFile ∧ r.rest.crater.isbasin = false := by
    rcases q2 with h | h
    · exact h
    · exact absurd (q1.symm.trans r2) (hbas q h.1)
  obtain ⟨fl, fi⟩ := mapM_ok_inv _ _ _ i7
  rw [forall₂_iff_getElem?]
  refine ⟨fl.symm, ?_⟩
  intro k n l hk hl
  obtain ⟨l', e3, e4⟩ := fi k n hk
  rw [hl] at e3; cases e3
  obtain ⟨x, e5, e6⟩ := bind_ok_inv e4
  injection e6 with e6
  subst e6
  have e5 := arrAt_ok.1 e5
  obtain ⟨ml, mi⟩ := mapM_ok_inv _ _ _ i1
  obtain ⟨ds, m1, m2⟩ := mi a r.rest.crater (by rw [List.getElem?_map, r1]; rfl)
  rw [i4] at m1; cases m1
  obtain ⟨-, di⟩ := mapM_ok_inv _ _ _ m2
  have hsp := argmaxName_spec c.coldtrap_names n hr.names
  obtain ⟨target, ht⟩ : ∃ t, c.coldtrap_names[argmaxName c.coldtrap_names n]? = some t := by
    by_cases hm : n ∈ c.coldtrap_names
    · exact ⟨n, hsp.1 hm⟩
    · rw [hsp.2 hm]
      exact ⟨_, List.head?_eq_some_head hr.names⟩
  obtain ⟨o, o1, o2⟩ := di _ target ht
  have hox : o = x := by
    have : arow[argmaxName c.coldtrap_names n]? = some x := e5
    rw [o1] at this; exact Option.some.inj this
  subst hox
  obtain ⟨-, t, tn, hiff⟩ := shipped_dist nk sortAges sortNk setOrder g.pair hs c.noLimit
    (noLimit_runnable hr) hn df _ _ hdf hgt r (List.mem_of_getElem? r1) q
    (List.mem_append_left _ q3.1) q1 target (List.mem_of_getElem? ht)
  refine ⟨rfl, ?_, target, q, t, ?_, ?_, ⟨q3.1, q1.symm.trans r2⟩, tn, ?_⟩
  · intro y hy
    simp only at hy
    obtain ⟨m, hm1, hm2⟩ := nanMax_some (l := (((df.zip dists).filter fun p =>
      !p.1.rest.crater.isbasin).map (·.2)).flatten) ⟨y, by
        refine List.mem_flatten.2 ⟨arow, List.mem_map.2 ⟨(r, arow), List.mem_filter.2 ⟨?_, ?_⟩, rfl⟩, ?_⟩
        · exact List.mem_iff_getElem?.2 ⟨a, List.getElem?_zip_eq_some.2 ⟨r1, i4⟩⟩
        · simp [q3.2]
        · rw [← hy]; exact List.mem_of_getElem? o1⟩
    rw [i8] at hm1
    injection hm1 with hm1
    injection hm1 with hm1
    rw [hm1]
    refine hm2 y (List.mem_flatten.2 ⟨arow, List.mem_map.2 ⟨(r, arow), List.mem_filter.2 ⟨?_, ?_⟩, rfl⟩, ?_⟩)
    · exact List.mem_iff_getElem?.2 ⟨a, List.getElem?_zip_eq_some.2 ⟨r1, i4⟩⟩
    · simp [q3.2]
    · rw [← hy]; exact List.mem_of_getElem? o1
  · intro hm
    have := hsp.1 hm
    rw [ht] at this; exact Option.some.inj this
  · intro hm
    rw [← hsp.2 hm]; exact ht
  · intro y
    have h := hiff y
    rw [o2, Except.ok.injEq] at h
    simp only
    rw [h]
    refine ⟨fun h => h.1, fun h => ⟨h, Or.inl ?_⟩⟩
    unfold thresholdOf
    rw [q3.2]
    show (-1 : ℝ) < 0
    norm_num

/-- **C118** the upper panel has the points of the first six cold traps. -/
theorem C118_marks (g : Gen σ) (hg : LawfulGen g) (hs : Spec.SortDesc sortAges) (c : RunCfg)
    (hc : PhysicalCfg c) (hd : PhysicalData c (shippedData nk sortAges sortNk setOrder))
    (hr : Runnable c (shippedData nk sortAges sortNk setOrder)) (he : c.ej = EjCfg.default)
    (hm : c.mixing_ratio_petro = true ∧ c.mixing_ratio_a = 0.0183 ∧ c.mixing_ratio_b = 0.87)
    (hn : ∀ n ∈ c.coldtrap_names, n ∈ (RunCfg.default 1).coldtrap_names) (e1 e2 : σ) :
    ∃ fig, distFigure g c (shippedData nk sortAges sortNk setOrder) e1 e2 = .ok fig ∧
      List.Forall₂ (MarksOf c.coldtrap_names) (c.coldtrap_names.take 6) fig.marks := by
  obtain ⟨fig, df, s', h1, hdf, hgt, hfig⟩ := distFigure_parts nk sortAges sortNk setOrder g hg hs c hc
    hd hr hn e1 e2
  refine ⟨fig, h1, ?_⟩
  have hrows := table_rowOf nk sortAges sortNk setOrder g.pair hs c.noLimit df _ _ hdf hgt
  obtain ⟨dists, i1, i2⟩ := distFigureOf_marks hfig
  obtain ⟨fl, fi⟩ := mapM_ok_inv _ _ _ i2
  obtain ⟨ml, mi⟩ := mapM_ok_inv _ _ _ i1
  have hej : c.noLimit.ej = { EjCfg.default with ej_threshold := -1 } := by
    rw [← he]; rfl
  rw [forall₂_iff_getElem?]
  refine ⟨fl.symm, ?_⟩
  intro k n m hk hmk
  obtain ⟨m', e3, e4⟩ := fi k n hk
  rw [hmk] at e3; cases e3
  obtain ⟨a, e5, e6⟩ := bind_ok_inv e4
  obtain ⟨row, e7, e8⟩ := bind_ok_inv e6
  injection e8 with e8
  subst e8
  obtain ⟨r, r1, r2⟩ := rowIndex_ok e5
  obtain ⟨q, q1, q2, -⟩ := hrows r (List.mem_of_getElem? r1)
  have hbas : ∀ b ∈ basinFile, b.cname ∉ (RunCfg.default 1).coldtrap_names := by
    unfold RunCfg.default; decide +kernel
  have q3 : q ∈ craterFile ∧ r.rest.crater.isbasin = false := by
    rcases q2 with h | h
    · exact h
    · refine absurd (hn n (List.mem_of_mem_take (List.mem_of_getElem? hk))) ?_
      rw [← r2, q1]; exact hbas q h.1
  refine ⟨rfl, q, ⟨q3.1, q1.symm.trans r2⟩, ?_⟩
  obtain ⟨ds, m1, m2⟩ := mi a r.rest.crater (by rw [List.getElem?_map, r1]; rfl)
  rw [arrAt_ok.1 e7] at m1
  injection m1 with m1
  subst m1
  obtain ⟨dl, di⟩ := mapM_ok_inv _ _ _ m2
  have hthr : thresholdOf c.noLimit.ej r.rest.crater < 0 := by
    unfold thresholdOf
    rw [q3.2, hej]
    simp
  have dl' : row.length = c.coldtrap_names.length := dl
  rw [forall₂_iff_getElem?]
  refine ⟨by simp [dl'], ?_⟩
  intro j n' p hj hp
  obtain ⟨o, o1, o2⟩ := di j n' hj
  obtain ⟨-, t, tn, hiff⟩ := shipped_dist nk sortAges sortNk setOrder g.pair hs c.noLimit
    (noLimit_runnable hr) hn df _ _ hdf hgt r (List.mem_of_getElem? r1) q
    (List.mem_append_left _ q3.1) q1 n' (List.mem_of_getElem? hj)
  rw [List.getElem?_zip_eq_some, List.getElem?_map, o1] at hp
  obtain ⟨p1, p2⟩ := hp
  injection p1 with p1
  injection p2 with p2
  refine ⟨t, tn, ?_, ?_⟩
  · intro x
    have h := hiff x
    rw [o2, Except.ok.injEq] at h
    rw [← p1, h]
    exact ⟨fun h => h.1, fun h => ⟨h, Or.inl hthr⟩⟩
  · rw [← p2, ← p1]
    cases o with
    | none => rfl
    | some x => exact localParts_eq (c := c.noLimit) hm x

/-- Rational check of the distance between two lines of the files. -/
def arcBetweenQ (src trap : FileRow) (lo hi : ℚ) : Bool :=
  match trap.psr with
  | none => false
  | some p =>
    let q := innerQ src.lat src.lon p.1 p.2
    decide (|src.lat| ≤ 90 ∧ |p.1| ≤ 90 ∧ |src.lon - p.2| ≤ 400 ∧ 0 ≤ lo / 1737400 ∧
      hi / 1737400 ≤ 3.14 ∧ lo ≤ hi ∧ q < cosRadQ (lo / 1737400) - 2e-7 ∧
      cosRadQ (hi / 1737400) + 2e-7 < q ∧ src.diam * 500 < lo ∧ src.cname ≠ trap.cname)

theorem arcBetweenQ_sound {src trap : FileRow} {lo hi : ℚ} (h : arcBetweenQ src trap lo hi = true) :
    ∃ x : ℝ, (lo : ℝ) < x ∧ x < hi ∧ ∀ y, Outside src trap y ↔ y = x := by
  unfold arcBetweenQ at h
  cases hp : trap.psr with
  | none => rw [hp] at h; cases h
  | some p =>
    rw [hp] at h
    simp only [decide_eq_true_eq] at h
    obtain ⟨h1, h2, h3, h4, h5, h6, h7, h8, h9, h10⟩ := h
    obtain ⟨θ, hθ⟩ : ∃ t, t = angle (direction (src.lat : ℝ) src.lon) (direction (p.1 : ℝ) p.2) :=
      ⟨_, rfl⟩
    have hq := innerQ_near src.lat src.lon p.1 p.2 h1 h2 h3
    rw [← hθ] at hq
    have t0 : 0 ≤ θ := hθ ▸ angle_nonneg _ _
    have t1 : θ ≤ π := hθ ▸ angle_le_pi _ _
    have hlh : lo / 1737400 ≤ hi / 1737400 := by
      apply div_le_div_of_nonneg_right h6; norm_num
    have a := (angle_lt_of_cosQ θ t0 t1 _ _ h4 (hlh.trans h5) hq).2 h7
    have b := (angle_lt_of_cosQ θ t0 t1 _ _ (h4.trans hlh) h5 hq).1 h8
    push_cast at a b
    rw [div_lt_iff₀ (by norm_num)] at a
    rw [lt_div_iff₀ (by norm_num)] at b
    refine ⟨1737400 * θ, by linarith, by linarith, ?_⟩
    intro y
    constructor
    · rintro ⟨-, ⟨p', v1, v2⟩, -⟩
      rw [hp] at v1; cases v1
      rw [v2, hθ]
    · rintro rfl
      refine ⟨h10, ⟨p, hp, by rw [hθ]⟩, ?_⟩
      have : ((src.diam * 500 : ℚ) : ℝ) < lo := by exact_mod_cast h9
      push_cast at this
      linarith

theorem amundsen_arcs : ∀ q ∈ craterFile, q.cname = "Amundsen" → ∀ t ∈ craterFile,
    (t.cname = "Faustini" → arcBetweenQ q t 83200 83400 = true) ∧
    (t.cname = "Shoemaker" → arcBetweenQ q t 127800 128000 = true) ∧
    (t.cname = "Haworth" → arcBetweenQ q t 180000 180200 = true) := by decide +kernel

/-- **C118** with the three cold traps in the configuration, as by default, the lines are at 83.3, 127.9
and 180.1 km. -/
theorem C118_lines_at (g : Gen σ) (hg : LawfulGen g) (hs : Spec.SortDesc sortAges) (c : RunCfg)
    (hc : PhysicalCfg c) (hd : PhysicalData c (shippedData nk sortAges sortNk setOrder))
    (hr : Runnable c (shippedData nk sortAges sortNk setOrder))
    (hn : ∀ n ∈ c.coldtrap_names, n ∈ (RunCfg.default 1).coldtrap_names)
    (h3 : ∀ n ∈ ["Faustini", "Shoemaker", "Haworth"], n ∈ c.coldtrap_names) (e1 e2 : σ) :
    ∃ fig x y z, distFigure g c (shippedData nk sortAges sortNk setOrder) e1 e2 = .ok fig ∧
      fig.vlines = [("Amundsen->Faustini", some x), ("Amundsen->Shoemaker", some y),
        ("Amundsen->Haworth", some z)] ∧
      83200 < x ∧ x < 83400 ∧ 127800 < y ∧ y < 128000 ∧ 180000 < z ∧ z < 180200 ∧ z ≤ fig.xmax := by
  obtain ⟨fig, h1, h2⟩ := C118_vlines nk sortAges sortNk setOrder g hg hs c hc hd hr hn e1 e2
  obtain ⟨vl, hv⟩ : ∃ t, t = fig.vlines := ⟨_, rfl⟩
  rw [← hv] at h2
  cases h2 with
  | @cons _ f _ l1 hf h2 =>
  cases h2 with
  | @cons _ s _ l2 hs' h2 =>
  cases h2 with
  | @cons _ w _ l3 hw h2 =>
  cases h2
  obtain ⟨f1, -, ft, fq, ftr, f2, -, f3, f4, f5⟩ := hf
  obtain ⟨s1, -, st, sq, str, s2, -, s3, s4, s5⟩ := hs'
  obtain ⟨w1, w6, wt, wq, wtr, w2, -, w3, w4, w5⟩ := hw
  have f2 := f2 (h3 _ (by simp))
  have s2 := s2 (h3 _ (by simp))
  have w2 := w2 (h3 _ (by simp))
  subst f2 s2 w2
  obtain ⟨x, x1, x2, x3⟩ := arcBetweenQ_sound ((amundsen_arcs fq f3.1 f3.2 ftr f4.1).1 f4.2)
  obtain ⟨y, y1, y2, y3⟩ := arcBetweenQ_sound ((amundsen_arcs sq s3.1 s3.2 str s4.1).2.1 s4.2)
  obtain ⟨z, z1, z2, z3⟩ := arcBetweenQ_sound ((amundsen_arcs wq w3.1 w3.2 wtr w4.1).2.2 w4.2)
  push_cast at x1 x2 y1 y2 z1 z2
  have fx := (f5 x).2 ((x3 x).2 rfl)
  have sy := (s5 y).2 ((y3 y).2 rfl)
  have wz := (w5 z).2 ((z3 z).2 rfl)
  refine ⟨fig, x, y, z, h1, ?_, x1, x2, y1, y2, z1, z2, w6 z wz⟩
  have ef : f = ("Amundsen->Faustini", some x) := Prod.ext f1 fx
  have es : s = ("Amundsen->Shoemaker", some y) := Prod.ext s1 sy
  have ew : w = ("Amundsen->Haworth", some z) := Prod.ext w1 wz
  rw [← hv, ef, es, ew]

theorem oldest_facts : (∀ q ∈ craterFile, q.age + q.age_upp < 4.233) ∧
    (∃ q ∈ basinFile, q.cname = "Birkhoff" ∧ 4.243 ≤ q.age - q.age_low) ∧
    (∀ q ∈ basinFile, 4.233 ≤ q.age + q.age_upp → q.cname ∈ ["Cruger-Sirsalis", "Amundsen-Ganswindt",
      "Dirichlet-Jackson", "Serenitatis", "Poincare", "Coulomb-Sarton", "Schiller-Zucchius",
      "Birkhoff", "Ingenii", "Fitzgerald-Jackson"]) ∧
    (∀ q ∈ basinFile, 4.233 ≤ q.age + q.age_upp → q.cname ≠ "Amundsen-Ganswindt" →
      q.cname ≠ "Schiller-Zucchius" → ∀ e ∈ craterReach ++ basinReach, q.cname ∉ e.2) := by
  decide +kernel

/-- Points of a basin that reaches no cold trap. -/
theorem basinPoints_empty {traps : List String} {q : FileRow} {row : List DistPoint}
    (hq : q ∈ basinFile) (hn : ∀ n ∈ traps, n ∈ (RunCfg.default 1).coldtrap_names)
    (h : BasinPoints traps q row) (hno : ∀ e ∈ craterReach ++ basinReach, q.cname ∉ e.2) :
    ∀ p ∈ row, p.dist = none := by
  intro p hp
  obtain ⟨j, hj⟩ := List.mem_iff_getElem?.1 hp
  have hjl : j < traps.length := by rw [← h.1]; exact (List.getElem?_eq_some_iff.1 hj).1
  obtain ⟨t, p', tn, e1, e2, -⟩ := h.2 j _ (List.getElem?_eq_getElem hjl)
  rw [hj] at e1; cases e1
  cases hd : p.dist with
  | none => rfl
  | some x =>
    obtain ⟨⟨v1, ⟨pp, v2, v3⟩, v4⟩, v5⟩ := (e2 x).1 hd
    have hr : Reaches 5 q t := ⟨v1, pp, v2, by rw [← v3]; exact v4, by rw [← v3]; exact v5⟩
    obtain ⟨e, he, -, hm⟩ := ((C112_reach t tn.1 (by
      rw [tn.2]; exact hn _ (List.getElem_mem hjl))).2 q hq).1 hr
    exact absurd hm (hno e he)

/-- The oldest row of the table is one of the basins that can be at least as old as Birkhoff. -/
theorem oldest_row (c : RunCfg) (df : CraterTable)
    (hgt : GoodTable c (shippedData nk sortAges sortNk setOrder) df)
    (hrows : ∀ r ∈ df, ∃ q, RowOf c.timestep q r)
    (hsort : (df.map (·.age)).Pairwise (· ≥ ·)) (hts : c.timestep ≤ 10 ^ 7)
    (r : CraterAge ℝ CraterCols) (h0 : df[0]? = some r) :
    ∃ q ∈ basinFile, r.rest.crater.cname = q.cname ∧ r.rest.crater.isbasin = true ∧
      4.233 ≤ q.age + q.age_upp := by
  have hsplit := table_split nk sortAges sortNk setOrder c df hgt hrows
  obtain ⟨q, q1, q2, q3, q4, q5, q6, -⟩ := hrows r (List.mem_of_getElem? h0)
  obtain ⟨b, b1, b2, b3⟩ := oldest_facts.2.1
  have hbm := hsplit.1.mem_iff.2 (List.mem_map_of_mem (f := (·.cname)) b1)
  obtain ⟨rb, rb1, rb2⟩ := List.mem_map.1 hbm
  obtain ⟨rb1, -⟩ := List.mem_filter.1 rb1
  obtain ⟨b', u1, u2, u3, u4, u5, u6, -⟩ := hrows rb rb1
  have hbb : b' = b := by
    refine List.inj_on_of_nodup_map file_names.1 ?_ (List.mem_append_right _ b1) (u1.symm.trans rb2)
    rcases u2 with ⟨m, -⟩ | ⟨m, -⟩
    · exact List.mem_append_left _ m
    · exact List.mem_append_right _ m
  subst hbb
  have hge : rb.age ≤ r.age := by
    obtain ⟨i, hi⟩ := List.mem_iff_getElem?.1 rb1
    cases i with
    | zero => rw [h0] at hi; injection hi with hi; rw [hi]
    | succ i =>
      rw [List.pairwise_map, List.pairwise_iff_getElem] at hsort
      obtain ⟨hil, hie⟩ := List.getElem?_eq_some_iff.1 hi
      obtain ⟨hjl, hje⟩ := List.getElem?_eq_some_iff.1 h0
      have := hsort 0 (i + 1) hjl hil (by omega)
      rw [hie, hje] at this
      exact this
  have b3' : (4.243 : ℝ) ≤ b'.age - b'.age_low := by
    have : ((4.243 : ℚ) : ℝ) ≤ ((b'.age - b'.age_low : ℚ) : ℝ) := by exact_mod_cast b3
    push_cast at this; linarith
  have hq : (4.233 : ℝ) ≤ q.age + q.age_upp := by linarith
  have hqQ : (4.233 : ℚ) ≤ q.age + q.age_upp := by
    have : ((4.233 : ℚ) : ℝ) ≤ ((q.age + q.age_upp : ℚ) : ℝ) := by push_cast; linarith
    exact_mod_cast this
  rcases q2 with h | h
  · exact absurd hqQ (not_le.2 (oldest_facts.1 q h.1))
  · exact ⟨q, h.1, q1, h.2, hqQ⟩

/-- **C118** the lines called "Ejecta thickness" and "Ballistic Sed. Mixing Region" join the points of
the oldest row only, one of ten basins.  Only two of these reach a cold trap; for the others the lines
are empty. -/
theorem C118_first_row (g : Gen σ) (hg : LawfulGen g) (hs : Spec.SortDesc sortAges) (c : RunCfg)
    (hc : PhysicalCfg c) (hd : PhysicalData c (shippedData nk sortAges sortNk setOrder))
    (hr : Runnable c (shippedData nk sortAges sortNk setOrder)) (he : c.ej = EjCfg.default)
    (hm : c.mixing_ratio_petro = true ∧ c.mixing_ratio_a = 0.0183 ∧ c.mixing_ratio_b = 0.87)
    (hn : ∀ n ∈ c.coldtrap_names, n ∈ (RunCfg.default 1).coldtrap_names)
    (hts : c.timestep ≤ 10 ^ 7) (e1 e2 : σ) :
    ∃ fig, distFigure g c (shippedData nk sortAges sortNk setOrder) e1 e2 = .ok fig ∧
      ∃ q ∈ basinFile, BasinPoints c.coldtrap_names q fig.line ∧
        q.cname ∈ ["Cruger-Sirsalis", "Amundsen-Ganswindt", "Dirichlet-Jackson", "Serenitatis",
          "Poincare", "Coulomb-Sarton", "Schiller-Zucchius", "Birkhoff", "Ingenii",
          "Fitzgerald-Jackson"] ∧
        (q.cname ≠ "Amundsen-Ganswindt" → q.cname ≠ "Schiller-Zucchius" →
          ∀ p ∈ fig.line, p.dist = none) := by
  obtain ⟨fig, df, s', h1, hdf, hgt, hfig⟩ := distFigure_parts nk sortAges sortNk setOrder g hg hs c hc
    hd hr hn e1 e2
  have hrows := table_rowOf nk sortAges sortNk setOrder g.pair hs c.noLimit df _ _ hdf hgt
  have hsort := (tableDrawn_of g hg (noLimit_physical hc) (noLimit_data hd) (noLimit_runnable hr)
    (e1, e2) df s' hdf).1
  obtain ⟨_, _, _, _, _, _, _, _, _, i6, _⟩ := distFigureOf_inv hfig
  have hlen : 0 < df.length := by
    rw [← distPoints_length hfig]; exact (List.getElem?_eq_some_iff.1 i6).1
  have h0 : df[0]? = some df[0] := List.getElem?_eq_getElem hlen
  obtain ⟨q, q1, q2, q3, q4⟩ := oldest_row nk sortAges sortNk setOrder c.noLimit df hgt hrows hsort hts
    df[0] h0
  obtain ⟨row, w1, w2⟩ := basin_row nk sortAges sortNk setOrder g.pair hs c hr he hm hn df _ _ hdf hgt
    fig hfig q q1 0 df[0] h0 q2 q3
  rw [i6] at w1
  injection w1 with w1
  rw [← w1] at w2
  exact ⟨fig, h1, q, q1, w2, oldest_facts.2.2.1 q q1 q4, fun n1 n2 =>
    basinPoints_empty q1 hn w2 (oldest_facts.2.2.2 q q1 q4 n1 n2)⟩

end shipped

theorem empty_facts : (∀ q ∈ craterFile, q.age + q.age_upp < 4.31) ∧ (∀ q ∈ basinFile, 4.31 ≤ q.age + q.age_upp →
      ∀ e ∈ craterReach ++ basinReach, q.cname ∉ e.2) := by decide +kernel

/-- **C118** both lines can be empty: no basin that reaches a cold trap can be older than 4.303 Ga, and
Birkhoff, which does not, can be 4.325 Ga old. -/
theorem C118_empty (seed : Int) :
    ∃ fig, distFigure highGen (RunCfg.default seed) (shippedData [] sortDesc id id) true false = .ok fig ∧
      fig.line.length = (RunCfg.default seed).coldtrap_names.length ∧ ∀ p ∈ fig.line, p.dist = none := by
  have hc := default_physical seed
  have hd := default_data [] sortDesc id id sortDesc_spec seed
  have hr := default_runnable [] sortDesc id id seed
  obtain ⟨fig, df, s', h1, hdf, hgt, hfig⟩ := distFigure_parts [] sortDesc id id highGen highGen_lawful
    sortDesc_spec _ hc hd hr (fun _ h => h) true false
  have hrows := table_rowOf [] sortDesc id id highGen.pair sortDesc_spec
    (RunCfg.default seed).noLimit df _ _ hdf hgt
  obtain ⟨hsort, rows, t1, -, -, t2⟩ := tableDrawn_of highGen highGen_lawful (noLimit_physical hc)
    (noLimit_data hd) (noLimit_runnable hr) (true, false) df s' hdf
  obtain ⟨b, hbe⟩ : ∃ t, t = basinFile[8] := ⟨_, rfl⟩
  have hget : (shippedData [] sortDesc id id).basins[8]? = some b.read := by rw [hbe]; rfl
  have r1 : b.read.age_low = 0.047 := by rw [hbe]; norm_num [basinFile, FileRow.read]
  have r2 : b.read.age_upp = 0.035 := by rw [hbe]; norm_num [basinFile, FileRow.read]
  have r3 : b.read.age = 4.29 := by rw [hbe]; norm_num [basinFile, FileRow.read]
  obtain ⟨rb, z, _, u1, u2, _, u3⟩ := t2 8 _ hget
  change (List.map (fun p : ℝ × ℝ => p.2) _)[_]? = _ at u2
  rw [List.getElem?_map, List.getElem?_map, List.getElem?_append_right (by omega),
    Nat.add_sub_cancel_left, hget] at u2
  injection u2 with u2
  simp only [ageRange, r1, r2] at u2
  have hage := u3.age
  rw [r1, r2, r3, ← u2] at hage
  simp only [RunCfg.noLimit, RunCfg.default] at hage
  norm_num [abs_le] at hage
  have hrdf : rb ∈ df := t1.mem_iff.2 (List.mem_of_getElem? u1)
  obtain ⟨_, _, _, _, _, _, _, _, _, i6, _⟩ := distFigureOf_inv hfig
  have hlen : 0 < df.length := List.length_pos_of_mem hrdf
  have h0 : df[0]? = some df[0] := List.getElem?_eq_getElem hlen
  have hge : rb.age ≤ df[0].age := by
    obtain ⟨i, hi⟩ := List.mem_iff_getElem?.1 hrdf
    cases i with
    | zero => rw [h0] at hi; injection hi with hi; rw [hi]
    | succ i =>
      rw [List.pairwise_map, List.pairwise_iff_getElem] at hsort
      obtain ⟨hil, hie⟩ := List.getElem?_eq_some_iff.1 hi
      have := hsort 0 (i + 1) hlen hil (by omega)
      rw [hie] at this
      exact this
  obtain ⟨q, q1, q2, q3, q4, q5, q6, -⟩ := hrows _ (List.mem_of_getElem? h0)
  simp only [RunCfg.noLimit, RunCfg.default] at q6
  have hqQ : (4.31 : ℚ) ≤ q.age + q.age_upp := by
    have : ((4.31 : ℚ) : ℝ) ≤ ((q.age + q.age_upp : ℚ) : ℝ) := by push_cast; linarith [hage.1]
    exact_mod_cast this
  have q7 : q ∈ basinFile ∧ df[0].rest.crater.isbasin = true := by
    rcases q2 with h | h
    · exact absurd hqQ (not_le.2 (empty_facts.1 q h.1))
    · exact h
  obtain ⟨row, w1, w2⟩ := basin_row [] sortDesc id id highGen.pair sortDesc_spec _ hr rfl
    ⟨rfl, rfl, rfl⟩ (fun _ h => h) df _ _ hdf hgt fig hfig q q7.1 0 df[0] h0 q1 q7.2
  rw [i6] at w1
  injection w1 with w1
  rw [← w1] at w2
  exact ⟨fig, h1, w2.1, basinPoints_empty q7.1 (fun _ h => h) w2 (empty_facts.2 q q7.1 hqQ)⟩

theorem amundsen_cabeus : ∀ q ∈ craterFile, q.cname = "Amundsen" → ∀ t ∈ craterFile,
    t.cname = "Cabeus" → arcBetweenQ q t 305500 306000 = true := by decide +kernel

/-- **C118** a line is drawn for a trap that is not in the configuration, at the distance of the first
one: with Cabeus alone all three lines are there, 306 km away. -/
theorem C118_wrong_trap (seed : Int) :
    ∃ fig x, distFigure constGen (cabeusCfg seed) (shippedData [] sortDesc id id) () () = .ok fig ∧
      fig.vlines = [("Amundsen->Faustini", some x), ("Amundsen->Shoemaker", some x),
        ("Amundsen->Haworth", some x)] ∧ 305500 < x ∧ x < 306000 := by
  have hsub : ∀ n ∈ (cabeusCfg seed).coldtrap_names, n ∈ (RunCfg.default seed).coldtrap_names := by
    intro n hn
    obtain rfl := List.mem_singleton.1 hn
    simp [RunCfg.default]
  have hp : PhysicalCfg (cabeusCfg seed) := by
    cases default_physical seed
    constructor <;> assumption
  have hd : PhysicalData (cabeusCfg seed) (shippedData [] sortDesc id id) := by
    have h := default_data [] sortDesc id id sortDesc_spec seed
    exact ⟨h.solar, h.volc, fun h1 n hn => h.hops h1 n (hsub n hn), h.basins, h.melt, h.lost, h.sorted⟩
  have hr : Runnable (cabeusCfg seed) (shippedData [] sortDesc id id) := by
    have h := default_runnable [] sortDesc id id seed
    exact ⟨by simp [cabeusCfg], by simp [cabeusCfg], h.start, h.span, h.bars, h.diam,
      fun n hn => h.once n (hsub n hn), fun r hr hn => h.old r hr (hsub _ hn), h.s2c, h.c2pr, h.angle90,
      fun r hr h1 => ⟨(h.peak r hr h1).1, fun t ht hn => (h.peak r hr h1).2 t ht (hsub _ hn)⟩, h.covers⟩
  obtain ⟨fig, h1, h2⟩ := C118_vlines [] sortDesc id id constGen constGen_lawful sortDesc_spec _ hp hd hr
    hsub () ()
  obtain ⟨a, ha⟩ : ∃ q, TrapNamed "Amundsen" q := by unfold TrapNamed; decide +kernel
  obtain ⟨t, ht⟩ : ∃ q, TrapNamed "Cabeus" q := by unfold TrapNamed; decide +kernel
  have uniq : ∀ n q q', TrapNamed n q → TrapNamed n q' → q = q' := fun n q q' k k' =>
    List.inj_on_of_nodup_map file_names.1 (List.mem_append_left _ k.1) (List.mem_append_left _ k'.1)
      (k.2.trans k'.2.symm)
  obtain ⟨x, x1, x2, x3⟩ := arcBetweenQ_sound (amundsen_cabeus a ha.1 ha.2 t ht.1 ht.2)
  push_cast at x1 x2
  have one : ∀ n ∈ ["Faustini", "Shoemaker", "Haworth"], ∀ l : String × Option ℝ,
      (l.1 = "Amundsen->" ++ n ∧ (∀ x, l.2 = some x → x ≤ fig.xmax) ∧
        ∃ target q t, (n ∈ (cabeusCfg seed).coldtrap_names → target = n) ∧
          (n ∉ (cabeusCfg seed).coldtrap_names → (cabeusCfg seed).coldtrap_names.head? = some target) ∧
          TrapNamed "Amundsen" q ∧ TrapNamed target t ∧ ∀ x, l.2 = some x ↔ Outside q t x) →
      l = ("Amundsen->" ++ n, some x) := by
    rintro n hn l ⟨l1, -, target, q, t', -, l2, l3, l4, l5⟩
    have htar : target = "Cabeus" := by
      have : n ∉ (cabeusCfg seed).coldtrap_names := by
        revert n; simp [cabeusCfg]
      have := l2 this
      simp only [cabeusCfg, List.head?_cons] at this
      injection this with this
      exact this.symm
    subst htar
    rw [uniq _ _ _ l3 ha, uniq _ _ _ l4 ht] at l5
    exact Prod.ext l1 ((l5 x).2 ((x3 x).2 rfl))
  obtain ⟨vl, hv⟩ : ∃ t, t = fig.vlines := ⟨_, rfl⟩
  rw [← hv] at h2
  cases h2 with
  | @cons _ f _ l1 hf h2 =>
  cases h2 with
  | @cons _ s _ l2 hs' h2 =>
  cases h2 with
  | @cons _ w _ l3 hw h2 =>
  cases h2
  refine ⟨fig, x, h1, ?_, x1, x2⟩
  rw [← hv, one _ (by simp) _ hf, one _ (by simp) _ hs', one _ (by simp) _ hw]
  rfl

/-! ## The default configuration -/

example : ∃ fig, distFigure constGen (RunCfg.default 7) (shippedData [] sortDesc id id) () () = .ok fig ∧
    fig.points.length = 51 := by
  obtain ⟨fig, h1, h2, -⟩ := C118_points [] sortDesc id id constGen constGen_lawful sortDesc_spec
    (RunCfg.default 7) (default_physical 7) (default_data _ _ _ _ sortDesc_spec 7)
    (default_runnable _ _ _ _ 7) rfl ⟨rfl, rfl, rfl⟩ (fun _ h => h) () ()
  exact ⟨fig, h1, h2.trans (by decide +kernel)⟩

example : ∃ fig, distFigure constGen (RunCfg.default 7) (shippedData [] sortDesc id id) () () = .ok fig ∧
    fig.marks.map (·.1) = ["Haworth", "Shoemaker", "Faustini", "Shackleton", "Slater", "Amundsen"] := by
  obtain ⟨fig, h1, h2⟩ := C118_marks [] sortDesc id id constGen constGen_lawful sortDesc_spec
    (RunCfg.default 7) (default_physical 7) (default_data _ _ _ _ sortDesc_spec 7)
    (default_runnable _ _ _ _ 7) rfl ⟨rfl, rfl, rfl⟩ (fun _ h => h) () ()
  refine ⟨fig, h1, ?_⟩
  have : List.Forall₂ (fun n (m : String × List (Option ℝ × Option ℝ)) => m.1 = n)
      ((RunCfg.default 7).coldtrap_names.take 6) fig.marks := h2.imp fun _ _ h => h.1
  have e : ∀ l (m : List (String × List (Option ℝ × Option ℝ))),
      List.Forall₂ (fun n m => m.1 = n) l m → m.map (·.1) = l := by
    intro l m h
    induction h with
    | nil => rfl
    | cons h _ ih => rw [List.map_cons, h, ih]
  rw [e _ _ this]
  decide +kernel

example : ∃ fig x y z, distFigure constGen (RunCfg.default 7) (shippedData [] sortDesc id id) () () =
      .ok fig ∧
    fig.vlines = [("Amundsen->Faustini", some x), ("Amundsen->Shoemaker", some y),
      ("Amundsen->Haworth", some z)] ∧
    83200 < x ∧ x < 83400 ∧ 127800 < y ∧ y < 128000 ∧ 180000 < z ∧ z < 180200 ∧ z ≤ fig.xmax :=
  C118_lines_at [] sortDesc id id constGen constGen_lawful sortDesc_spec
    (RunCfg.default 7) (default_physical 7) (default_data _ _ _ _ sortDesc_spec 7)
    (default_runnable _ _ _ _ 7) (fun _ h => h) (by decide) () ()

example : ∃ fig, distFigure constGen (RunCfg.default 7) (shippedData [] sortDesc id id) () () = .ok fig ∧
    ∃ q ∈ basinFile, BasinPoints (RunCfg.default 7).coldtrap_names q fig.line ∧
      4 < q.age := by
  obtain ⟨fig, h1, q, h2, h3, h4, -⟩ := C118_first_row [] sortDesc id id constGen constGen_lawful
    sortDesc_spec (RunCfg.default 7) (default_physical 7) (default_data _ _ _ _ sortDesc_spec 7)
    (default_runnable _ _ _ _ 7) rfl ⟨rfl, rfl, rfl⟩ (fun _ h => h) (by norm_num [RunCfg.default]) () ()
  have hold : ∀ q ∈ basinFile, q.cname ∈ ["Cruger-Sirsalis", "Amundsen-Ganswindt",
      "Dirichlet-Jackson", "Serenitatis", "Poincare", "Coulomb-Sarton", "Schiller-Zucchius", "Birkhoff",
      "Ingenii", "Fitzgerald-Jackson"] → 4 < q.age := by decide +kernel
  exact ⟨fig, h1, q, h2, h3, hold q h2 h4⟩

/-- C118 without Amundsen: an empty table. -/
example : ∃ e, distFigureOf (RunCfg.default 7) [] = .error e :=
  C118_no_amundsen _ _ (by simp)

end MoonPIES
