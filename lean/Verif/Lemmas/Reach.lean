import Verif.Lemmas.TrigEval
import Verif.Spec.Reach

/-!
# Deciding which craters reach which cold trap with rational arithmetic
-/

namespace MoonPIES

open Real InnerProductGeometry Spec

/-- Rational approximation of the inner product of two directions. -/
def innerQ (lat1 lon1 lat2 lon2 : ℚ) : ℚ :=
  let a := cosDegQ (lat1 - lat2)
  let b := cosDegQ (lat1 + lat2)
  (a - b) / 2 + (a + b) / 2 * cosDegQ (lon1 - lon2)

theorem innerQ_near (lat1 lon1 lat2 lon2 : ℚ) (h1 : |lat1| ≤ 90) (h2 : |lat2| ≤ 90)
    (h3 : |lon1 - lon2| ≤ 400) :
    |cos (angle (direction lat1 lon1) (direction lat2 lon2)) - (innerQ lat1 lon1 lat2 lon2 : ℝ)| ≤
      1e-7 := by
  have h1' : |(lat1 : ℝ)| ≤ 90 := by exact_mod_cast h1
  have h2' : |(lat2 : ℝ)| ≤ 90 := by exact_mod_cast h2
  have h3' : |((lon1 - lon2 : ℚ) : ℝ)| ≤ 400 := by exact_mod_cast h3
  have ha := cosDegQ_near (lat1 - lat2) (by
    push_cast; rw [abs_le] at *; constructor <;> linarith [h1'.1, h1'.2, h2'.1, h2'.2])
  have hb := cosDegQ_near (lat1 + lat2) (by
    push_cast; rw [abs_le] at *; constructor <;> linarith [h1'.1, h1'.2, h2'.1, h2'.2])
  have hd := cosDegQ_near (lon1 - lon2) h3'
  rw [cos_angle, direction_norm, direction_norm, mul_one, div_one]
  have e : inner ℝ (direction (lat1 : ℝ) lon1) (direction (lat2 : ℝ) lon2) =
      (cos (((lat1 - lat2 : ℚ) : ℝ) * π / 180) - cos (((lat1 + lat2 : ℚ) : ℝ) * π / 180)) / 2 +
      (cos (((lat1 - lat2 : ℚ) : ℝ) * π / 180) + cos (((lat1 + lat2 : ℚ) : ℝ) * π / 180)) / 2 *
        cos (((lon1 - lon2 : ℚ) : ℝ) * π / 180) := by
    push_cast
    simp only [direction, PiLp.inner_apply, Fin.sum_univ_three, sub_mul, add_mul, sub_div, add_div,
      cos_sub, cos_add]
    simp
    ring
  rw [e]
  have hA := abs_cos_le_one (((lat1 - lat2 : ℚ) : ℝ) * π / 180)
  have hB := abs_cos_le_one (((lat1 + lat2 : ℚ) : ℝ) * π / 180)
  have hD := abs_cos_le_one (((lon1 - lon2 : ℚ) : ℝ) * π / 180)
  unfold innerQ
  simp only []
  push_cast
  push_cast at ha hb hd hA hB hD
  generalize cos (((lat1 : ℝ) - lat2) * π / 180) = A at *
  generalize cos (((lat1 : ℝ) + lat2) * π / 180) = B at *
  generalize cos (((lon1 : ℝ) - lon2) * π / 180) = D at *
  generalize ((cosDegQ (lat1 - lat2) : ℚ) : ℝ) = A' at *
  generalize ((cosDegQ (lat1 + lat2) : ℚ) : ℝ) = B' at *
  generalize ((cosDegQ (lon1 - lon2) : ℚ) : ℝ) = D' at *
  have e2 : (A - B) / 2 + (A + B) / 2 * D - ((A' - B') / 2 + (A' + B') / 2 * D') =
      ((A - A') - (B - B')) / 2 + ((A - A') + (B - B')) / 2 * D +
        ((A + B) / 2 * (D - D') - ((A - A') + (B - B')) / 2 * (D - D')) := by ring
  rw [e2]
  have m1 : |((A - A') - (B - B')) / 2| ≤ 1e-8 := by
    rw [abs_le] at *; constructor <;> linarith [ha.1, ha.2, hb.1, hb.2]
  have m2 : |((A - A') + (B - B')) / 2| ≤ 1e-8 := by
    rw [abs_le] at *; constructor <;> linarith [ha.1, ha.2, hb.1, hb.2]
  have m3 : |(A + B) / 2| ≤ 1 := by
    rw [abs_le] at *; constructor <;> linarith [hA.1, hA.2, hB.1, hB.2]
  have m4 : |((A - A') + (B - B')) / 2 * D| ≤ 1e-8 * 1 := by
    rw [abs_mul]; gcongr
  have m5 : |(A + B) / 2 * (D - D')| ≤ 1 * 1e-8 := by
    rw [abs_mul]; gcongr
  have m6 : |((A - A') + (B - B')) / 2 * (D - D')| ≤ 1e-8 * 1e-8 := by
    rw [abs_mul]; gcongr
  rw [abs_le] at m1 m4 m5 m6 ⊢
  constructor <;> linarith [m1.1, m1.2, m4.1, m4.2, m5.1, m5.2, m6.1, m6.2]

/-- Comparing an angle with a rational one through cosines. -/
theorem angle_lt_of_cosQ (θ : ℝ) (h0 : 0 ≤ θ) (h1 : θ ≤ π) (a q : ℚ) (ha : 0 ≤ a) (ha' : a ≤ 3.14)
    (hq : |cos θ - (q : ℝ)| ≤ 1e-7) :
    (cosRadQ a + 2e-7 < q → θ < a) ∧ (q < cosRadQ a - 2e-7 → (a : ℝ) < θ) := by
  have haR : (0 : ℝ) ≤ a := by exact_mod_cast ha
  have ha2 : (a : ℝ) ≤ 3.14 := by
    have : ((a : ℚ) : ℝ) ≤ ((3.14 : ℚ) : ℝ) := by exact_mod_cast ha'
    push_cast at this; linarith
  have hpi := pi_gt_d20
  have hc := cosRadQ_near a (by rw [abs_le]; constructor <;> linarith)
  rw [abs_le] at hc hq
  constructor
  · intro h
    have h' : ((cosRadQ a : ℚ) : ℝ) + 2e-7 < q := by
      have : ((cosRadQ a + 2e-7 : ℚ) : ℝ) < ((q : ℚ) : ℝ) := by exact_mod_cast h
      push_cast at this; linarith
    by_contra hn
    have := cos_le_cos_of_nonneg_of_le_pi haR h1 (not_lt.1 hn)
    linarith [hc.1, hc.2, hq.1, hq.2]
  · intro h
    have h' : (q : ℝ) < ((cosRadQ a : ℚ) : ℝ) - 2e-7 := by
      have : ((q : ℚ) : ℝ) < ((cosRadQ a - 2e-7 : ℚ) : ℝ) := by exact_mod_cast h
      push_cast at this; linarith
    by_contra hn
    have := cos_le_cos_of_nonneg_of_le_pi h0 (by linarith) (not_lt.1 hn)
    linarith [hc.1, hc.2, hq.1, hq.2]

/-- Decision of `Reaches` with rational numbers; `none` when out of range or too close. -/
def reachQ (k : ℚ) (src trap : FileRow) : Option Bool :=
  if src.cname = trap.cname then some false
  else match trap.psr with
    | none => some false
    | some p =>
      let a := src.diam * 500 / 1737400
      let b := k * a
      if |src.lat| ≤ 90 ∧ |p.1| ≤ 90 ∧ |src.lon - p.2| ≤ 400 ∧ 0 ≤ a ∧ a ≤ 3.14 ∧ 0 ≤ b ∧ b ≤ 3.14
      then
        let q := innerQ src.lat src.lon p.1 p.2
        let ca := cosRadQ a
        if ca + 2e-7 < q then some false
        else if ca - 2e-7 ≤ q then none
        else
          let cb := cosRadQ b
          if cb + 2e-7 < q then some true
          else if q < cb - 2e-7 then some false
          else none
      else none

theorem reachQ_sound (k : ℚ) (src trap : FileRow) (b : Bool) (h : reachQ k src trap = some b) :
    Reaches k src trap ↔ b = true := by
  unfold reachQ at h
  by_cases hn : src.cname = trap.cname
  · rw [if_pos hn, Option.some.injEq] at h
    subst h
    exact ⟨fun hr => absurd hn hr.1, fun hr => by cases hr⟩
  rw [if_neg hn] at h
  cases hp : trap.psr with
  | none =>
    rw [hp] at h
    simp only [Option.some.injEq] at h
    subst h
    constructor
    · rintro ⟨-, p, h2, -⟩
      rw [hp] at h2; cases h2
    · intro hr; cases hr
  | some p =>
    rw [hp] at h
    simp only [] at h
    split at h
    case isFalse => cases h
    rename_i hr
    obtain ⟨r1, r2, r3, r4, r5, r6, r7⟩ := hr
    obtain ⟨θ, hθ⟩ : ∃ t, t = angle (direction (src.lat : ℝ) src.lon) (direction (p.1 : ℝ) p.2) :=
      ⟨_, rfl⟩
    have hq := innerQ_near src.lat src.lon p.1 p.2 r1 r2 r3
    rw [← hθ] at hq
    have t0 : 0 ≤ θ := hθ ▸ angle_nonneg _ _
    have t1 : θ ≤ π := hθ ▸ angle_le_pi _ _
    obtain ⟨a1, a2⟩ := angle_lt_of_cosQ θ t0 t1 _ _ r4 r5 hq
    obtain ⟨b1, b2⟩ := angle_lt_of_cosQ θ t0 t1 _ _ r6 r7 hq
    have ea : ((src.diam * 500 / 1737400 : ℚ) : ℝ) = (src.diam : ℝ) * 500 / 1737400 := by
      push_cast; ring
    have eb : ((k * (src.diam * 500 / 1737400) : ℚ) : ℝ) =
        (k : ℝ) * ((src.diam : ℝ) * 500) / 1737400 := by push_cast; ring
    rw [ea] at a1 a2
    rw [eb] at b1 b2
    have hiff : Reaches k src trap ↔ (src.diam : ℝ) * 500 < 1737400 * θ ∧
        1737400 * θ < k * (src.diam * 500) := by
      rw [hθ]
      constructor
      · rintro ⟨-, p', h2, h3⟩
        rw [hp, Option.some.injEq] at h2
        subst h2
        exact h3
      · intro h3
        exact ⟨hn, p, hp, h3⟩
    rw [hiff]
    have hpos : (0 : ℝ) < 1737400 := by norm_num
    split at h
    case isTrue hc =>
      rw [Option.some.injEq] at h
      subst h
      have := a1 hc
      rw [lt_div_iff₀ hpos] at this
      constructor
      · rintro ⟨h5, -⟩; linarith
      · intro h5; cases h5
    split at h
    case isTrue => cases h
    rename_i hc2
    have hin := a2 (not_le.1 hc2)
    rw [div_lt_iff₀ hpos] at hin
    split at h
    case isTrue hc =>
      rw [Option.some.injEq] at h
      subst h
      have := b1 hc
      rw [lt_div_iff₀ hpos] at this
      exact ⟨fun _ => rfl, fun _ => ⟨by linarith, by linarith⟩⟩
    split at h
    case isTrue hc =>
      rw [Option.some.injEq] at h
      subst h
      have := b2 hc
      rw [div_lt_iff₀ hpos] at this
      constructor
      · rintro ⟨-, h5⟩; linarith
      · intro h5; cases h5
    case isFalse => cases h

/-- Rows of the crater file with a name. -/
def rowNamed (n : String) : Option FileRow := craterFile.find? (fun r => r.cname == n)

/-- Rational check of a table. -/
def checkTable (k : ℚ) (file : List FileRow) (tab : List (String × List String)) : Bool :=
  tab.all (fun e => match rowNamed e.1 with
    | none => false
    | some t => file.all (fun src => reachQ k src t == some (decide (src.cname ∈ e.2))))

end MoonPIES
