import Verif.Spec.Places
import Verif.Model.MainFrom
import Verif.Lemmas.AloofRun

/-!
# Helper lemmas for moving all places
-/

namespace MoonPIES

open Spec

variable {σ : Type}

theorem surfaceDist_move {P : ℝ × ℝ → ℝ × ℝ} (h : KeepsDistances P) (c : Crater) (p : ℝ × ℝ) :
    surfaceDist (moveCrater P c) (P p).1 (P p).2 = surfaceDist c p.1 p.2 := by
  unfold surfaceDist
  congr 1
  exact h (c.lat, c.lon) p

theorem coldtrapDist_move {P : ℝ × ℝ → ℝ × ℝ} (h : KeepsDistances P) (cfg : EjCfg) (df : List Crater) (row : Crater)
    (trap : String) :
    coldtrapDist cfg (df.map (moveCrater P)) (moveCrater P row) trap = coldtrapDist cfg df row trap := by
  have hf : (df.map (moveCrater P)).filter (fun c => decide (c.cname = trap)) =
      (df.filter (fun c => decide (c.cname = trap))).map (moveCrater P) := by
    rw [List.filter_map]; rfl
  unfold coldtrapDist
  rw [hf]
  by_cases hn : row.cname = trap
  · have : (moveCrater P row).cname = trap := hn
    simp only [if_pos hn, if_pos this]
  · have : ¬ (moveCrater P row).cname = trap := hn
    simp only [if_neg hn, if_neg this]
    cases hl : df.filter (fun c => decide (c.cname = trap)) with
    | nil => rfl
    | cons t l =>
      cases l with
      | cons u l => rfl
      | nil =>
        simp only [List.map_cons, List.map_nil]
        cases hp : t.psr with
        | none => simp [moveCrater, hp]
        | some p =>
          have : (moveCrater P t).psr = some (P p) := by simp [moveCrater, hp]
          simp only [this, gcDist_surface, surfaceDist_move h]
          rfl

theorem coldtrapDists_move {P : ℝ × ℝ → ℝ × ℝ} (h : KeepsDistances P) (cfg : EjCfg) (df : List Crater)
    (names : List String) :
    coldtrapDists cfg (df.map (moveCrater P)) names = coldtrapDists cfg df names := by
  unfold coldtrapDists
  rw [List.mapM_map]
  refine mapM_congr_mem fun row _ => ?_
  exact mapM_congr_mem fun t _ => coldtrapDist_move h cfg df row t

theorem thicknessMatrix_move (P : ℝ × ℝ → ℝ × ℝ) (c : RunCfg) (df : CraterTable) (dists : List (List (Option ℝ))) :
    thicknessMatrix c (df.map (moveRow P)) dists = thicknessMatrix c df dists := by
  unfold thicknessMatrix
  rw [List.zip_map_left, List.mapM_map]
  rfl

theorem ejRows_move (P : ℝ × ℝ → ℝ × ℝ) (df : CraterTable) (thick : List ℝ) :
    ejRows (df.map (moveRow P)) thick = ejRows df thick := by
  unfold ejRows
  rw [List.zipWith_map_left]
  rfl

theorem icyRows_move (P : ℝ × ℝ → ℝ × ℝ) (c : RunCfg) (df : CraterTable) :
    icyRows c (df.map (moveRow P)) = (icyRows c df).map (moveRow P) := by
  unfold icyRows
  rw [List.filter_map]
  rfl

theorem iceCols_move (P : ℝ × ℝ → ℝ × ℝ) (g : Gen σ) (c : RunCfg) (d : RunData) (df : CraterTable) (time : List ℝ)
    (s : σ) : iceCols g c d (df.map (moveRow P)) time s = iceCols g c d df time s := by
  have e : ∀ (c : RunCfg) s, impactIce g c (df.map (moveRow P)) time s = impactIce g c df time s := by
    intro c s
    unfold impactIce iceBasins
    rw [icyRows_move]
    simp only [List.map_map, List.length_map]
    rfl
  unfold iceCols polarIce impactIceComet
  simp only [e]

theorem trapAges_move (P : ℝ × ℝ → ℝ × ℝ) (df : CraterTable) (names : List String) :
    trapAges (df.map (moveRow P)) names = trapAges df names := by
  unfold trapAges
  rw [mapM_congr_mem (f' := rowsNamed df)]
  intro t _
  unfold rowsNamed
  have : (df.map (moveRow P)).filter (fun r => decide (r.rest.crater.cname = t)) =
      (df.filter (fun r => decide (r.rest.crater.cname = t))).map (moveRow P) := by
    rw [List.filter_map]; rfl
  rw [this]
  cases df.filter (fun r => decide (r.rest.crater.cname = t)) with
  | nil => rfl
  | cons a l =>
    simp only [List.map_cons, List.map_map]
    rfl

theorem runFrom_move {P : ℝ × ℝ → ℝ × ℝ} (h : KeepsDistances P) (g : Gen σ) (c : RunCfg) (d : RunData)
    (sort : CraterTable → CraterTable) (time : List ℝ) (df : CraterTable) (s : σ) :
    runFrom g c (moveData P sort d) time (df.map (moveRow P)) s = runFrom g c d time df s := by
  have hf : ∀ cols, formatCsv c (moveData P sort d) time (df.map (moveRow P)) cols = formatCsv c d time df cols := by
    intro cols
    unfold formatCsv
    rw [trapAges_move]
    rfl
  have hi : ∀ thick, initStratCols g c (moveData P sort d) time (df.map (moveRow P)) thick s =
      initStratCols g c d time df thick s := by
    intro thick
    unfold initStratCols
    simp only [ejRows_move, iceCols_move]
    rfl
  have hb : ∀ dists thick, bsedArrays c (moveData P sort d) time (df.map (moveRow P)) dists thick =
      bsedArrays c d time df dists thick := by
    intro dists thick
    unfold bsedArrays
    simp only [List.map_map]
    rfl
  unfold runFrom
  simp only [hf, hi, hb, thicknessMatrix_move]
  rw [show (df.map (moveRow P)).map (·.rest.crater) = (df.map (·.rest.crater)).map (moveCrater P) by
    rw [List.map_map, List.map_map]; rfl, coldtrapDists_move h]

theorem newAges_move (P : ℝ × ℝ → ℝ × ℝ) (ts : ℝ) (z : Nat → ℝ) : ∀ (df : CraterTable) (i : Nat),
    newAges ts z i (df.map (moveRow P)) = (newAges ts z i df).map (List.map (moveRow P))
  | [], _ => rfl
  | r :: df, i => by
    rw [List.map_cons, newAges, newAges, newAges_move P ts z df (i + 1)]
    have : newAge ts (z i) (moveRow P r) = (newAge ts (z i) r).map (moveRow P) := by
      unfold newAge
      have h1 : sigOf (moveRow P r) = sigOf r := rfl
      have h2 : truncA (moveRow P r) = truncA r := rfl
      have h3 : truncB (moveRow P r) = truncB r := rfl
      rw [h1, h2, h3]
      split
      · rfl
      · split <;> rfl
    rw [this]
    cases newAge ts (z i) r with
    | error e => rfl
    | ok r' => cases newAges ts z (i + 1) df <;> rfl

theorem craterBasinList_move (P : ℝ × ℝ → ℝ × ℝ) (g : Gen σ) (c : RunCfg) (d : RunData)
    (sort : CraterTable → CraterTable) (hs : ∀ df, sort (df.map (moveRow P)) = (d.sortAges df).map (moveRow P)) (s : σ) :
    craterBasinList g c (moveData P sort d) s =
      (craterBasinList g c d s).map (fun p => (p.1.map (moveRow P), p.2)) := by
  unfold craterBasinList
  have e1 : (moveData P sort d).craters.map (readRow false "no") =
      (d.craters.map (readRow false "no")).map (moveRow P) := by
    simp only [moveData, List.map_map]
    rfl
  have e2 : ∀ icy : List String, List.zipWith (fun r icy => readRow true icy r) (moveData P sort d).basins icy =
      (List.zipWith (fun r icy => readRow true icy r) d.basins icy).map (moveRow P) := by
    intro icy
    simp only [moveData]
    rw [List.zipWith_map_left, List.map_zipWith]
    rfl
  have e3 : (moveData P sort d).basins.length = d.basins.length := by simp [moveData]
  rw [e1, e3]
  have e4 : ∀ df : CraterTable, (df.map (moveRow P)).map (fun r => (truncA r, truncB r)) =
      df.map (fun r => (truncA r, truncB r)) := by
    intro df
    rw [List.map_map]
    rfl
  simp only [e2, ← List.map_append, e4]
  unfold randomizeAges
  rw [newAges_move]
  have e5 : (moveData P sort d).sortAges = sort := rfl
  rw [e5]
  cases newAges c.timestep _ 0 _ with
  | error e => rfl
  | ok df =>
    simp only [Except.map, bind, Except.bind, hs]

end MoonPIES
