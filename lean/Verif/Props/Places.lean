import Verif.Lemmas.Places
import Verif.Props.Aloof
import Verif.Props.Main

/-!
# C140: only distances between places matter
-/

namespace MoonPIES

open Spec Real InnerProductGeometry

variable {σ : Type}

/-- **C140** a run on craters, basins and cold traps moved together, by any move that keeps distances, gives the
same results and the same errors. -/
theorem C140_moved (g : Gen σ) (c : RunCfg) (d : RunData) {P : ℝ × ℝ → ℝ × ℝ} (h : KeepsDistances P)
    (sort : CraterTable → CraterTable) (hs : ∀ df, sort (df.map (moveRow P)) = (d.sortAges df).map (moveRow P)) :
    runMain g c (moveData P sort d) = runMain g c d := by
  rw [C139_run_from, C139_run_from, craterBasinList_move P g c d sort hs]
  cases getTimeArray c.timestart c.timeend c.timestep with
  | error e => rfl
  | ok time =>
    cases craterBasinList g c d (g.init c.seed) with
    | error e => rfl
    | ok p => exact runFrom_move h g c d sort time p.1 p.2

theorem placeAngle_eq (p q : ℝ × ℝ) : placeAngle p q = arccos (1 - 2 * haversine p.2 p.1 q.2 q.1) := by
  unfold placeAngle angle
  rw [direction_inner, direction_norm, direction_norm]
  simp

/-- Turned eastward about the axis by `a` degrees. -/
def Spec.turned (a : ℝ) (p : ℝ × ℝ) : ℝ × ℝ := (p.1, p.2 + a)

/-- East and west exchanged. -/
def Spec.mirrored (p : ℝ × ℝ) : ℝ × ℝ := (p.1, -p.2)

/-- The poles exchanged. -/
def Spec.flipped (p : ℝ × ℝ) : ℝ × ℝ := (-p.1, p.2)

/-- Longitudes written in another range, such as 0 to 360 instead of -180 to 180. -/
def Spec.Rewritten (P : ℝ × ℝ → ℝ × ℝ) : Prop := ∀ p, (P p).1 = p.1 ∧ ∃ k : ℤ, (P p).2 = p.2 + 360 * k

/-- **C140** turning, mirroring, exchanging the poles and writing longitudes in another range keep distances. -/
theorem C140_moves : (∀ a, KeepsDistances (turned a)) ∧ KeepsDistances mirrored ∧ KeepsDistances flipped ∧
    ∀ P, Rewritten P → KeepsDistances P := by
  refine ⟨fun a p q => ?_, fun p q => ?_, fun p q => ?_, fun P hP p q => ?_⟩
  · rw [placeAngle_eq, placeAngle_eq]
    simp only [turned, haversine, deg2rad]
    congr 7
    ring
  · rw [placeAngle_eq, placeAngle_eq]
    simp only [mirrored, haversine, deg2rad]
    rw [show (-q.2 * (π / 180) - -p.2 * (π / 180)) / 2 = -((q.2 * (π / 180) - p.2 * (π / 180)) / 2) by ring, sin_neg,
      neg_sq]
  · rw [placeAngle_eq, placeAngle_eq]
    simp only [flipped, haversine, deg2rad]
    rw [show (-q.1 * (π / 180) - -p.1 * (π / 180)) / 2 = -((q.1 * (π / 180) - p.1 * (π / 180)) / 2) by ring, sin_neg,
      neg_sq, show -p.1 * (π / 180) = -(p.1 * (π / 180)) by ring, show -q.1 * (π / 180) = -(q.1 * (π / 180)) by ring,
      cos_neg, cos_neg]
  · obtain ⟨h1, k, h2⟩ := hP p
    obtain ⟨h3, l, h4⟩ := hP q
    rw [placeAngle_eq, placeAngle_eq]
    simp only [haversine, deg2rad]
    rw [h1, h2, h3, h4]
    have e : ∀ x : ℝ, sin (x / 2) ^ 2 = (1 - cos x) / 2 := fun x => by
      have h := cos_sq' (x / 2)
      have h' := cos_sq (x / 2)
      rw [show 2 * (x / 2) = x by ring] at h'
      linarith
    rw [e ((q.2 + 360 * l) * (π / 180) - (p.2 + 360 * k) * (π / 180)), e (q.2 * (π / 180) - p.2 * (π / 180)),
      show (q.2 + 360 * l) * (π / 180) - (p.2 + 360 * k) * (π / 180) =
        (q.2 * (π / 180) - p.2 * (π / 180)) + ((l - k : ℤ) : ℝ) * (2 * π) by push_cast; ring,
      cos_add_int_mul_two_pi]

theorem sortDesc_move (P : ℝ × ℝ → ℝ × ℝ) (df : CraterTable) :
    sortDesc (df.map (moveRow P)) = (sortDesc df).map (moveRow P) := by
  unfold sortDesc
  rw [List.map_mergeSort]
  intro a _ b _
  rfl

/-- **C140** the same run if all longitudes are written in another range. -/
theorem C140_longitudes (g : Gen σ) (c : RunCfg) (d : RunData) {P : ℝ × ℝ → ℝ × ℝ} (h : Rewritten P)
    (hd : d.sortAges = sortDesc) : runMain g c (moveData P sortDesc d) = runMain g c d :=
  C140_moved g c d (C140_moves.2.2.2 P h) sortDesc fun df => by rw [hd, sortDesc_move]

/-- **C140** the same run on the mirror image, with the poles exchanged, and seen from another meridian. -/
theorem C140_symmetric (g : Gen σ) (c : RunCfg) (d : RunData) (a : ℝ) (hd : d.sortAges = sortDesc) :
    runMain g c (moveData (turned a) sortDesc d) = runMain g c d ∧
    runMain g c (moveData mirrored sortDesc d) = runMain g c d ∧
    runMain g c (moveData flipped sortDesc d) = runMain g c d :=
  ⟨C140_moved g c d (C140_moves.1 a) sortDesc fun df => by rw [hd, sortDesc_move],
    C140_moved g c d C140_moves.2.1 sortDesc fun df => by rw [hd, sortDesc_move],
    C140_moved g c d C140_moves.2.2.1 sortDesc fun df => by rw [hd, sortDesc_move]⟩

/-- C140 applies to the shipped files and every seed of the default configuration. -/
example (seed : Int) := C140_symmetric constGen (RunCfg.default seed) (shippedData [] sortDesc id id) 90 rfl

/-- 0 to 360 is another range than -180 to 180. -/
example : Rewritten (fun p => (p.1, if p.2 < 0 then p.2 + 360 else p.2)) := by
  intro p
  refine ⟨rfl, ?_⟩
  by_cases h : p.2 < 0
  · exact ⟨1, by simp [h]⟩
  · exact ⟨0, by simp [h]⟩

end MoonPIES
