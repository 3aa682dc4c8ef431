import Verif.Spec.Law
import Verif.Props.Extra
import Verif.Props.Average

/-!
# C161: erosion damps the variance of the ice delivered
-/

namespace MoonPIES

open Spec Finset

section
set_option linter.unusedSectionVars false
variable {K : Type} [Field K] [LinearOrder K] [IsStrictOrderedRing K]

theorem meanLaw_congr {l : Law K} {f g : K → K} (h : ∀ q ∈ l, f q.1 = g q.1) : meanLaw l f = meanLaw l g := by
  unfold meanLaw
  congr 1
  exact List.map_congr_left fun q hq => by rw [h q hq]

theorem meanLaw_le : ∀ {l : Law K} {f g : K → K}, (∀ q ∈ l, 0 ≤ q.2) → (∀ q ∈ l, f q.1 ≤ g q.1) →
    meanLaw l f ≤ meanLaw l g
  | [], _, _, _, _ => le_rfl
  | q :: l, f, g, hw, h => by
    have := meanLaw_le (l := l) (fun p hp => hw p (List.mem_cons_of_mem _ hp)) fun p hp => h p (List.mem_cons_of_mem _ hp)
    unfold meanLaw at this ⊢
    rw [List.map_cons, List.map_cons, List.sum_cons, List.sum_cons]
    exact add_le_add (mul_le_mul_of_nonneg_left (h q List.mem_cons_self) (hw q List.mem_cons_self)) this

theorem meanLaw_add : ∀ (l : Law K) (f g : K → K), meanLaw l (fun x => f x + g x) = meanLaw l f + meanLaw l g
  | [], _, _ => by simp [meanLaw]
  | q :: l, f, g => by
    have := meanLaw_add l f g
    unfold meanLaw at this ⊢
    simp only [List.map_cons, List.sum_cons, this]
    ring

theorem meanLaw_smul : ∀ (l : Law K) (c : K) (f : K → K), meanLaw l (fun x => c * f x) = c * meanLaw l f
  | [], _, _ => by simp [meanLaw]
  | q :: l, c, f => by
    have := meanLaw_smul l c f
    unfold meanLaw at this ⊢
    simp only [List.map_cons, List.sum_cons, this]
    ring

theorem meanLaw_const {l : Law K} (h : (l.map Prod.snd).sum = 1) (c : K) : meanLaw l (fun _ => c) = c := by
  have : meanLaw l (fun _ => c) = c * meanLaw l (fun _ => 1) := by rw [← meanLaw_smul]; simp
  rw [this]
  unfold meanLaw
  simp only [mul_one]
  rw [h, mul_one]

/-- The mean square distance from any number is the variance and the square of the distance of the mean from it. -/
theorem meanLaw_shift {l : Law K} (h : IsLaw l) (f : K → K) (c : K) :
    meanLaw l (fun x => (f x - c) ^ 2) = varLaw l f + (meanLaw l f - c) ^ 2 := by
  obtain ⟨m, hm⟩ : ∃ m, m = meanLaw l f := ⟨_, rfl⟩
  unfold varLaw
  rw [← hm, show (fun x => (f x - c) ^ 2) =
    fun x => ((f x - m) ^ 2 + (2 * (m - c) * f x + (-(2 * (m - c) * m) + (m - c) ^ 2))) by funext x; ring,
    meanLaw_add, meanLaw_add, meanLaw_smul, meanLaw_const h.total, ← hm]
  ring

/-- A function that moves no two values further apart has at most the variance of the values. -/
theorem varLaw_damp {l : Law K} (h : IsLaw l) (g : K → K)
    (hg : ∀ x y, 0 ≤ x → 0 ≤ y → |g x - g y| ≤ |x - y|) : varLaw l g ≤ varLaw l id := by
  have hm : 0 ≤ meanLaw l id := by
    have := meanLaw_le (f := fun _ => 0) (g := id) h.weight h.value
    rwa [meanLaw_const h.total] at this
  have h1 := meanLaw_shift h g (g (meanLaw l id))
  have h2 : meanLaw l (fun x => (g x - g (meanLaw l id)) ^ 2) ≤ varLaw l id :=
    meanLaw_le h.weight fun q hq => by
      rw [← sq_abs, ← sq_abs (id q.1 - _)]
      exact pow_le_pow_left₀ (abs_nonneg _) (hg _ _ (h.value q hq) hm) 2
  have := sq_nonneg (meanLaw l g - g (meanLaw l id))
  linarith

theorem meanLaws_add : ∀ (ls : List (Law K)) (f g : List K → K),
    meanLaws ls (fun x => f x + g x) = meanLaws ls f + meanLaws ls g
  | [], _, _ => rfl
  | l :: ls, f, g => by
    rw [meanLaws, meanLaws, meanLaws, ← meanLaw_add]
    exact meanLaw_congr fun q _ => meanLaws_add ls _ _

theorem meanLaws_smul : ∀ (ls : List (Law K)) (c : K) (f : List K → K),
    meanLaws ls (fun x => c * f x) = c * meanLaws ls f
  | [], _, _ => rfl
  | l :: ls, c, f => by
    rw [meanLaws, meanLaws, ← meanLaw_smul]
    exact meanLaw_congr fun q _ => meanLaws_smul ls c _

theorem meanLaws_const : ∀ {ls : List (Law K)}, (∀ l ∈ ls, IsLaw l) → ∀ c : K, meanLaws ls (fun _ => c) = c
  | [], _, _ => rfl
  | l :: ls, h, c => by
    rw [meanLaws, meanLaw_congr (g := fun _ => c) fun q _ =>
      meanLaws_const (fun k hk => h k (List.mem_cons_of_mem _ hk)) c]
    exact meanLaw_const (h l List.mem_cons_self).total c

theorem meanLaws_le : ∀ {ls : List (Law K)}, (∀ l ∈ ls, IsLaw l) → ∀ {f g : List K → K},
    (∀ xs : List K, xs.length = ls.length → (∀ x ∈ xs, 0 ≤ x) → f xs ≤ g xs) → meanLaws ls f ≤ meanLaws ls g
  | [], _, _, _, h => h [] rfl (by simp)
  | l :: ls, hl, f, g, h => by
    rw [meanLaws, meanLaws]
    refine meanLaw_le (hl l List.mem_cons_self).weight fun q hq =>
      meanLaws_le (fun k hk => hl k (List.mem_cons_of_mem _ hk)) fun xs hxs h0 => h _ (by simp [hxs]) ?_
    intro x hx
    rcases List.mem_cons.1 hx with rfl | hx
    · exact (hl l List.mem_cons_self).value q hq
    · exact h0 x hx

theorem meanLaws_congr {ls : List (Law K)} (hl : ∀ l ∈ ls, IsLaw l) {f g : List K → K}
    (h : ∀ xs : List K, xs.length = ls.length → (∀ x ∈ xs, 0 ≤ x) → f xs = g xs) : meanLaws ls f = meanLaws ls g :=
  le_antisymm (meanLaws_le hl fun xs a b => (h xs a b).le) (meanLaws_le hl fun xs a b => (h xs a b).ge)

theorem meanLaws_shift {ls : List (Law K)} (h : ∀ l ∈ ls, IsLaw l) (f : List K → K) (c : K) :
    meanLaws ls (fun x => (f x - c) ^ 2) = varLaws ls f + (meanLaws ls f - c) ^ 2 := by
  obtain ⟨m, hm⟩ : ∃ m, m = meanLaws ls f := ⟨_, rfl⟩
  unfold varLaws
  rw [← hm, show (fun x => (f x - c) ^ 2) =
    fun x => ((f x - m) ^ 2 + (2 * (m - c) * f x + (-(2 * (m - c) * m) + (m - c) ^ 2))) by funext x; ring,
    meanLaws_add, meanLaws_add, meanLaws_smul, meanLaws_const h, ← hm]
  ring

/-- The variance of a function of independent values that moves no further than they do together is at most the sum
of their variances. -/
theorem varLaws_damp : ∀ {ls : List (Law K)}, (∀ l ∈ ls, IsLaw l) → ∀ f : List K → K,
    (∀ xs ys : List K, xs.length = ls.length → ys.length = ls.length → (∀ x ∈ xs, 0 ≤ x) → (∀ y ∈ ys, 0 ≤ y) →
      |f xs - f ys| ≤ gap xs ys) → varLaws ls f ≤ (ls.map fun l => varLaw l id).sum
  | [], _, f, _ => by simp [varLaws, meanLaws]
  | l :: ls, hl, f, hf => by
    have hl' : ∀ k ∈ ls, IsLaw k := fun k hk => hl k (List.mem_cons_of_mem _ hk)
    have h1 := hl l List.mem_cons_self
    have nn : ∀ {x : K} {xs : List K}, 0 ≤ x → (∀ y ∈ xs, 0 ≤ y) → ∀ y ∈ x :: xs, 0 ≤ y := fun hx hxs y hy => by
      rcases List.mem_cons.1 hy with rfl | hy
      · exact hx
      · exact hxs y hy
    have split : varLaws (l :: ls) f = meanLaw l (fun x => varLaws ls fun xs => f (x :: xs)) +
        varLaw l (fun x => meanLaws ls fun xs => f (x :: xs)) := by
      unfold varLaws varLaw
      rw [← meanLaw_add, meanLaws]
      exact meanLaw_congr fun q _ => meanLaws_shift hl' _ _
    have a1 : varLaw l (fun x => meanLaws ls fun xs => f (x :: xs)) ≤ varLaw l id := by
      refine varLaw_damp h1 _ fun x y hx hy => ?_
      have up : ∀ x y : K, 0 ≤ x → 0 ≤ y →
          meanLaws ls (fun xs => f (x :: xs)) ≤ meanLaws ls (fun xs => f (y :: xs)) + |x - y| := by
        intro x y hx hy
        rw [← meanLaws_const hl' |x - y|, ← meanLaws_add]
        refine meanLaws_le hl' fun xs hxs h0 => ?_
        have := hf (x :: xs) (y :: xs) (by simp [hxs]) (by simp [hxs]) (nn hx h0) (nn hy h0)
        rw [gap, gap_self, add_zero] at this
        have := (abs_le.1 this).2
        linarith
      have u1 := up x y hx hy
      have u2 := up y x hy hx
      rw [abs_sub_comm] at u2
      rw [abs_le]
      constructor <;> linarith
    have a2 : meanLaw l (fun x => varLaws ls fun xs => f (x :: xs)) ≤ (ls.map fun l => varLaw l id).sum := by
      rw [← meanLaw_const h1.total (ls.map fun l => varLaw l id).sum]
      refine meanLaw_le h1.weight fun q hq => varLaws_damp hl' _ fun xs ys hxs hys h0 h0' => ?_
      have := hf (q.1 :: xs) (q.1 :: ys) (by simp [hxs]) (by simp [hys]) (nn (h1.value q hq) h0) (nn (h1.value q hq) h0')
      rwa [gap, sub_self, abs_zero, zero_add] at this
    rw [split, List.map_cons, List.sum_cons]
    linarith

theorem pile_sum_gap (shield ed : K) (hed : 0 ≤ ed) (ys ys' ej : List K) (hl : ys.length = ys'.length)
    (h0 : ∀ y ∈ ys, 0 ≤ y) (h0' : ∀ y ∈ ys', 0 ≤ y) :
    |(pile shield ed [] (ys.zip ej)).sum - (pile shield ed [] (ys'.zip ej)).sum| ≤ gap ys ys' := by
  obtain ⟨k1, k2⟩ := pile_supply shield ed hed ys ys' ej [] [] hl rfl (by simp) (by simp) h0 h0'
  rw [show gap ([] : List K) [] = 0 from rfl, zero_add] at k1
  exact (gap_sum _ _ k2).trans k1

theorem overturnOnly_total (fl : K → K) (shield : K) (ej : List K) : ∀ (ovs : List K) (t : Nat) (ice : List K),
    ice.length = t + ovs.length → ∃ r, overturnOnly fl shield false ej t ovs ice = .ok r
  | [], _, ice, _ => ⟨ice, rfl⟩
  | o :: ovs, t, ice, h => by
    rw [List.length_cons] at h
    obtain ⟨m, hm⟩ := erodeLoop_total fl t (erosionBase ej t shield) (t + 1) o ice (by omega)
    have hm' : removeIceOverturn fl shield false ice ej t o = .ok m := hm
    have hl := (erodeLoop_frame fl t (erosionBase ej t shield) (t + 1) o ice m hm).1
    obtain ⟨r, hr⟩ := overturnOnly_total fl shield ej ovs (t + 1) m (by omega)
    exact ⟨r, by rw [overturnOnly, hm']; exact hr⟩

/-- **C161** In a column under the erosion of Cannon et al. alone, whose ejecta are fixed and to which each timestep
brings ice independently of the others, the variance of what is left is at most the sum of the variances of what the
timesteps bring. -/
theorem C161_column (shield ed : K) (hed : 0 ≤ ed) (ej ovs : List K) (ho : ∀ o ∈ ovs, o = ed) (ls : List (Law K))
    (hl : ∀ l ∈ ls, IsLaw l) (hlen : ls.length = ovs.length) (hej : ej.length = ovs.length) :
    ∃ kept : List K → K, (∀ ys : List K, ys.length = ls.length → (∀ y ∈ ys, 0 ≤ y) → ∃ r,
        overturnOnly (fun x => x) shield false ej 0 ovs ys = .ok r ∧ kept ys = r.sum) ∧
      varLaws ls kept ≤ (ls.map fun l => varLaw l id).sum := by
  refine ⟨fun ys => (pile shield ed [] (ys.zip ej)).sum, fun ys hys h0 => ?_, varLaws_damp hl _
    fun xs ys hxs hys h0 h0' => pile_sum_gap shield ed hed xs ys ej (by omega) h0 h0'⟩
  obtain ⟨r, h⟩ := overturnOnly_total (fun x => x) shield ej ovs 0 ys (by omega)
  have := C110_column shield ed hed ej ovs 0 ys r ho h0 (by omega) (by omega) h
  simp only [List.take_zero, List.drop_zero, List.reverse_nil] at this
  exact ⟨r, h, by rw [this, List.sum_reverse]⟩

/-- C161 where the variance falls from 2 to 11/16: 0 or 2 m each time with even odds, 1 m eaten each time; 0, 1, 0
or 2 m are left of two deliveries. -/
example : IsLaw ([(0, 1 / 2), (2, 1 / 2)] : Law ℚ) ∧ varLaw ([(0, 1 / 2), (2, 1 / 2)] : Law ℚ) id = 1 ∧
    overturnOnly (fun x => x) (4 / 10) false [0, 0] 0 [1, 1] ([0, 0] : List ℚ) = .ok [0, 0] ∧
    overturnOnly (fun x => x) (4 / 10) false [0, 0] 0 [1, 1] ([0, 2] : List ℚ) = .ok [0, 1] ∧
    overturnOnly (fun x => x) (4 / 10) false [0, 0] 0 [1, 1] ([2, 0] : List ℚ) = .ok [0, 0] ∧
    overturnOnly (fun x => x) (4 / 10) false [0, 0] 0 [1, 1] ([2, 2] : List ℚ) = .ok [1, 1] ∧
    varLaws ([[(0, 1 / 2), (2, 1 / 2)], [(0, 1 / 2), (2, 1 / 2)]] : List (Law ℚ))
      (fun ys => if ys = [2, 2] then 2 else if ys = [0, 2] then 1 else 0) = 11 / 16 :=
  ⟨⟨by decide +kernel, by decide +kernel, by decide +kernel⟩, by decide +kernel, by decide +kernel, by decide +kernel,
    by decide +kernel, by decide +kernel, by decide +kernel⟩

theorem meanLaws_points : ∀ (xs : List K) (l : Law K) (f : List K → K),
    meanLaws (xs.map (fun x => [(x, 1)]) ++ [l]) f = meanLaw l (fun x => f (xs ++ [x]))
  | [], _, _ => rfl
  | x :: xs, l, f => by
    rw [List.map_cons, List.cons_append, meanLaws, meanLaw]
    simp only [List.map_cons, List.map_nil, List.sum_cons, List.sum_nil, one_mul, add_zero]
    rw [meanLaws_points xs l]
    rfl

/-- **C161** The gardening of Costello et al. can multiply the variance by any number: in a column of `n + 1` layers,
of which only the last is uncertain, by `4 ^ n`. -/
theorem C161_costello (n : Nat) : ∃ ls : List (Law K), ls.length = n + 1 ∧ (∀ l ∈ ls, IsLaw l) ∧
    0 < (ls.map fun l => varLaw l id).sum ∧
    ∀ kept : List K → K, (∀ ys, ys.length = n + 1 → (∀ y ∈ ys, 0 ≤ y) → ∀ r,
        gardenIceColumn (fun x => x) ys (List.replicate (n + 1) 0) n (2 ^ (n + 1)) 1 = .ok r → kept ys = r.sum) →
      varLaws ls kept = 4 ^ n * (ls.map fun l => varLaw l id).sum := by
  have hP : (0 : K) < 2 ^ n := by positivity
  obtain ⟨d, hd⟩ : ∃ d : K, d = 1 / 2 ^ n := ⟨_, rfl⟩
  have hd0 : 0 < d := by rw [hd]; positivity
  have hdP : 2 ^ n * d = 1 := by rw [hd]; field_simp
  obtain ⟨xs, hxs⟩ : ∃ xs : List K, xs = (List.range n).map fun k => 3 * 2 ^ k := ⟨_, rfl⟩
  have hxs0 : ∀ x ∈ xs, 0 ≤ x := by
    intro x hx
    rw [hxs] at hx
    obtain ⟨k, -, rfl⟩ := List.mem_map.1 hx
    positivity
  obtain ⟨l, hl⟩ : ∃ l : Law K, l = [(3 * 2 ^ n, 1 / 2), (3 * 2 ^ n + d, 1 / 2)] := ⟨_, rfl⟩
  have hvar : varLaw l id = d ^ 2 / 4 := by
    rw [hl]
    simp only [varLaw, meanLaw, List.map_cons, List.map_nil, List.sum_cons, List.sum_nil, id]
    ring
  have hpt : ∀ zs : List K, ((zs.map fun x => ([(x, 1)] : Law K)).map fun l => varLaw l id).sum = 0 := by
    intro zs
    induction zs with
    | nil => rfl
    | cons z zs ih =>
      rw [List.map_cons, List.map_cons, List.sum_cons, ih]
      simp [varLaw, meanLaw]
  have hsum : ((xs.map (fun x => ([(x, 1)] : Law K)) ++ [l]).map fun l => varLaw l id).sum = d ^ 2 / 4 := by
    rw [List.map_append, List.sum_append, hpt]
    simp [hvar]
  refine ⟨xs.map (fun x => [(x, 1)]) ++ [l], by simp [hxs], ?_, by rw [hsum]; positivity, ?_⟩
  · intro k hk
    rcases List.mem_append.1 hk with hk | hk
    · obtain ⟨x, hx, rfl⟩ := List.mem_map.1 hk
      exact ⟨by simp, by simp, by simpa using hxs0 x hx⟩
    · rw [List.mem_singleton.1 hk, hl]
      refine ⟨by simp, by simp; norm_num, ?_⟩
      intro q hq
      simp only [List.mem_cons, List.not_mem_nil, or_false] at hq
      rcases hq with rfl | rfl <;> positivity
  · intro kept hk
    have val : ∀ δ : K, 0 ≤ δ → 2 ^ n * δ ≤ 1 → kept (xs ++ [3 * 2 ^ n + δ]) =
        (((List.range n).map fun k => (2 : K) ^ k) ++ [2 ^ n]).sum + 2 ^ n * δ := by
      intro δ h0 h1
      obtain ⟨a, b⟩ := C154_costello_refuted n δ h0 h1
      rw [← hxs] at a
      rw [hk _ (by simp [hxs]) (by
        intro y hy
        rcases List.mem_append.1 hy with hy | hy
        · exact hxs0 y hy
        · rw [List.mem_singleton.1 hy]; positivity) _ a]
      linarith
    have v0 := val 0 le_rfl (by simp)
    have v1 := val d hd0.le hdP.le
    rw [add_zero, mul_zero, add_zero] at v0
    rw [hdP] at v1
    have h4 : (4 : K) ^ n * (d ^ 2 / 4) = 1 / 4 := by
      have : (4 : K) ^ n = (2 ^ n) ^ 2 := by rw [← pow_mul, mul_comm, pow_mul]; norm_num
      rw [this]
      have : ((2 : K) ^ n) ^ 2 * (d ^ 2 / 4) = (2 ^ n * d) ^ 2 / 4 := by ring
      rw [this, hdP]
      norm_num
    rw [hsum, h4, varLaws, meanLaws_points, meanLaws_points, hl]
    simp only [meanLaw, List.map_cons, List.map_nil, List.sum_cons, List.sum_nil, v0, v1]
    ring

end

variable {σ ι : Type} [Fintype ι]

/-- Weighted squares about the mean are the least. -/
theorem weights_shift {w : ι → ℝ} (hw : Weights w) (x : ι → ℝ) (c : ℝ) :
    ∑ i, w i * (x i - ∑ j, w j * x j) ^ 2 ≤ ∑ i, w i * (x i - c) ^ 2 := by
  obtain ⟨m, hm⟩ : ∃ m, m = ∑ j, w j * x j := ⟨_, rfl⟩
  have h1 : ∑ i, w i * (x i - c) ^ 2 = ∑ i, w i * (x i - m) ^ 2 + (m - c) ^ 2 := by
    have : ∀ i, w i * (x i - c) ^ 2 =
        w i * (x i - m) ^ 2 + (2 * (m - c) * (w i * x i) + (-(2 * (m - c) * m) + (m - c) ^ 2) * w i) := fun i => by ring
    rw [sum_congr rfl fun i _ => this i, sum_add_distrib, sum_add_distrib, ← mul_sum, ← mul_sum, hw.total, ← hm]
    ring
  rw [← hm, h1]
  have := sq_nonneg (m - c)
  linarith

/-- **C161** An ensemble of runs with the erosion of Cannon et al. and no ballistic sedimentation, at the same rate
and times: where a cold trap gets the same ejecta in all of them, the variance of the ice it keeps is at most the mean
square of how far the ice delivered is from any column, however the deliveries hang together. -/
theorem C161_run {w : ι → ℝ} (hw : Weights w) (g : ι → Gen σ) (hg : ∀ i, LawfulGen (g i)) (c : ι → RunCfg)
    (d : ι → RunData) (hc : ∀ i, PhysicalCfg (c i)) (hd : ∀ i, PhysicalData (c i) (d i))
    (hnd : ∀ i, (c i).coldtrap_names.Nodup) (hcost : ∀ i, (c i).impact_gardening_costello = false)
    (hbs : ∀ i, (c i).ballistic_sed = false) (ed : ℝ) (hed : 0 ≤ ed)
    (hrate : ∀ i, (c i).ice_erosion_rate * ((c i).timestep / 1e7) = ed) (time : List ℝ) (htne : time ≠ [])
    (htime : ∀ i, getTimeArray (c i).timestart (c i).timeend (c i).timestep = .ok time) (out : ι → CsvOut)
    (hrun : ∀ i, runMain (g i) (c i) (d i) = .ok (out i)) (j : Nat) (name : String)
    (hj : ∀ i, (c i).coldtrap_names[j]? = some name) (ej : List ℝ)
    (hej : ∀ i, (out i).ej.get name = .ok ej) :
    ∃ (df : ι → CraterTable) (s s' : ι → σ) (delivered : ι → List (List ℝ)) (ys ice : ι → List ℝ),
      (∀ i, craterBasinList (g i) (c i) (d i) ((g i).init (c i).seed) = .ok (df i, s i)) ∧
      (∀ i, iceCols (g i) (c i) (d i) (df i) time (s i) = .ok (delivered i, s' i)) ∧
      (∀ i, (ys i).length = time.length) ∧
      (∀ i (k : Nat) row, (delivered i)[k]? = some row → (ys i)[k]? = row[j]? ∧ row[j]?.isSome = true) ∧
      (∀ i, (out i).ice.get name = .ok (ice i)) ∧
      ∀ m : List ℝ, m.length = time.length → (∀ x ∈ m, 0 ≤ x) →
        ∑ i, w i * ((ice i).sum - ∑ k, w k * (ice k).sum) ^ 2 ≤ ∑ i, w i * gap (ys i) m ^ 2 := by
  obtain ⟨df, s, s', del, ys, ice, m1, m2, m3, m4, m5, m6, m7⟩ := cannon_ensemble g hg c d hc hd hnd hcost hbs ed hed
    hrate time htne htime out hrun j name hj ej hej
  refine ⟨df, s, s', del, ys, ice, m1, m2, m3, m4, m5, fun m hm h0 => ?_⟩
  refine (weights_shift hw _ (pile 0.4 ed [] (m.zip ej)).sum).trans (sum_le_sum fun i _ => ?_)
  refine mul_le_mul_of_nonneg_left ?_ (hw.nonneg i)
  rw [m7 i, ← sq_abs]
  exact pow_le_pow_left₀ (abs_nonneg _)
    (pile_sum_gap 0.4 ed hed (ys i) m ej (by rw [m3 i, hm]) (m6 i) h0) 2

/-- C161 applies to a hundred runs that reproduce Cannon et al. (2020) with the shipped files, whatever their seeds,
in every cold trap where they have the same ejecta. -/
example (nk : List (ℝ × ℝ)) (sortAges : CraterTable → CraterTable) (sortNk : List (ℝ × ℝ) → List (ℝ × ℝ))
    (setOrder : List (List Char) → List (List Char)) (g : Gen σ) (hg : LawfulGen g) (hs : Spec.SortDesc sortAges)
    (seed : Fin 100 → Int) : ∃ out : Fin 100 → CsvOut,
      (∀ i, runMain g (RunCfg.cannon (seed i)) (shippedData nk sortAges sortNk setOrder) = .ok (out i)) ∧
      ∀ ej, (∀ i, (out i).ej.get "Shoemaker" = .ok ej) → ∃ ys ice : Fin 100 → List ℝ,
        (∀ i, (out i).ice.get "Shoemaker" = .ok (ice i)) ∧
        ∀ m : List ℝ, m.length = 425 → (∀ x ∈ m, 0 ≤ x) →
          ∑ i, 1 / 100 * ((ice i).sum - ∑ k, 1 / 100 * (ice k).sum) ^ 2 ≤ ∑ i, 1 / 100 * gap (ys i) m ^ 2 := by
  have hr : ∀ i, ∃ out, runMain g (RunCfg.cannon (seed i)) (shippedData nk sortAges sortNk setOrder) = .ok out :=
    fun i => (C74_default_returns nk sortAges sortNk setOrder g hg hs (seed i)).2
  choose out hout using hr
  refine ⟨out, hout, fun ej hej => ?_⟩
  obtain ⟨time, ht, htl⟩ : ∃ time : List ℝ, getTimeArray (4.25e9 : ℝ) 0 10e6 = .ok time ∧ time.length = 425 :=
    ⟨_, C19_uniform_partial (4.25e9 : ℝ) 10e6 425 (by norm_num) (by norm_num) (by norm_num), by simp [uniformGrid]⟩
  obtain ⟨_, _, _, _, ys, ice, -, -, -, -, h5, h6⟩ := C161_run (w := fun _ : Fin 100 => (1 / 100 : ℝ))
    ⟨fun _ => by norm_num, by simp⟩ (fun _ => g) (fun _ => hg) (fun i => RunCfg.cannon (seed i))
    (fun _ => shippedData nk sortAges sortNk setOrder) (fun i => cannon_physical (seed i))
    (fun i => cannon_data _ _ _ _ hs (seed i))
    (fun i => (cannon_runnable nk sortAges sortNk setOrder (seed i)).nodup) (fun _ => rfl) (fun _ => rfl) 0.1
    (by norm_num) (fun i => cannon_erosion (seed i)) time (by intro h; simp [h] at htl) (fun _ => ht) out hout 1
    "Shoemaker" (fun _ => rfl) ej hej
  exact ⟨ys, ice, h5, fun m hm h0 => h6 m (by rw [hm, htl]) h0⟩

end MoonPIES
