import Verif.Dbscan.Props
import Verif.Dbscan.RadiusLemmas
import Mathlib.MeasureTheory.Measure.Lebesgue.VolumeOfBalls
/-!
# The neighbourhood radius of the clustering: C119, C120
-/
set_option autoImplicit false
set_option linter.unusedSectionVars false

namespace Verif.Dbscan

open MeasureTheory

variable {n : Nat}

/-! ### C119: what the radius means -/

/-- **C119** If the `m` instances were spread evenly over their bounding box, a ball of the radius
computed by `epsilon` would contain `k` of them: `m` times the volume of the ball equals `k` times
the volume of the box. -/
theorem C119_expected (hn : 0 < n) (x : Nat → Fin n → ℝ) (m k : Nat) (hm : 0 < m)
    (lo hi : Fin n → ℝ) (hlo : ∀ c, IsLeast {v | ∃ i, i < m ∧ x i c = v} (lo c))
    (hhi : ∀ c, IsGreatest {v | ∃ i, i < m ∧ x i c = v} (hi c))
    (centre : EuclideanSpace ℝ (Fin n)) :
    0 ≤ epsilon x m k ∧
    (m : ENNReal) * volume (Metric.closedBall centre (epsilon x m k)) =
      (k : ENNReal) * volume (Set.Icc lo hi) := by
  refine ⟨epsilon_nonneg x hm k, ?_⟩
  have : Nonempty (Fin n) := ⟨⟨0, hn⟩⟩
  have hs : ∀ c, spread x m c = hi c - lo c := fun c => spread_eq (hlo c) (hhi c)
  have hs0 : ∀ c, 0 ≤ hi c - lo c := fun c => by rw [← hs c]; exact spread_nonneg x hm c
  have hprod : 0 ≤ ∏ c, (hi c - lo c) := Finset.prod_nonneg fun c _ => hs0 c
  have hr : radicand x m k = (∏ c, (hi c - lo c)) * k * Real.Gamma (0.5 * n + 1) /
      (m * Real.sqrt (Real.pi ^ n)) := by
    unfold radicand
    rw [Finset.prod_congr rfl fun c _ => hs c]
  rw [EuclideanSpace.volume_closedBall, Real.volume_Icc_pi, Fintype.card_fin,
    ← ENNReal.ofReal_pow (epsilon_nonneg x hm k), epsilon_pow hn x hm k, hr,
    ← ENNReal.ofReal_prod_of_nonneg fun c _ => hs0 c, ← ENNReal.ofReal_mul (by
      have := (gamma_pos n).le
      positivity), ← ENNReal.ofReal_natCast, ← ENNReal.ofReal_natCast,
    ← ENNReal.ofReal_mul (by positivity), ← ENNReal.ofReal_mul (by positivity)]
  congr 1
  have h1 : (0.5 : ℝ) * n + 1 = (n : ℝ) / 2 + 1 := by norm_num; ring
  have h2 : Real.sqrt (Real.pi ^ n) = Real.sqrt Real.pi ^ n := by
    rw [Real.sqrt_eq_iff_mul_self_eq (by positivity) (by positivity), ← mul_pow,
      Real.mul_self_sqrt Real.pi_pos.le]
  have h3 := (gamma_pos n).ne'
  rw [h2, h1]
  rw [h1] at h3
  have h4 : Real.sqrt Real.pi ^ n ≠ 0 := by positivity
  have h5 : (m : ℝ) ≠ 0 := by exact_mod_cast hm.ne'
  field_simp

/-- Non-vacuity for C119: two instances at the corners of a box with sides 3 and 4; a ball of the
radius has the volume `3 / 2 * 12 = 18` for `k = 3`. -/
example (centre : EuclideanSpace ℝ (Fin 2)) : (2 : ENNReal) * volume (Metric.closedBall centre
    (epsilon (fun i c => if i = 0 then 0 else ![3, 4] c) 2 3)) = 3 * volume (Set.Icc ![0, 0]
      (![3, 4] : Fin 2 → ℝ)) := by
  have key := fun h1 h2 => (C119_expected (by norm_num)
    (fun i c => if i = 0 then 0 else ![3, 4] c) 2 3
    (by norm_num) ![0, 0] ![3, 4] h1 h2 centre).2
  refine (key ?_ ?_).trans rfl
  · intro c
    refine ⟨⟨0, by norm_num, by fin_cases c <;> simp⟩, ?_⟩
    rintro v ⟨i, -, rfl⟩
    fin_cases c <;> (simp only []; split <;> simp)
  · intro c
    refine ⟨⟨1, by norm_num, by simp⟩, ?_⟩
    rintro v ⟨i, -, rfl⟩
    fin_cases c <;> (simp only []; split <;> simp)

/-! ### C120: on what the clusters depend -/

/-- The full claim: the labels depend only on the distances between the instances. -/
def DistancesDecide (n : Nat) : Prop :=
  ∀ (x x' : Nat → Fin n → ℝ) (m count : Nat),
    (∀ i j, i < m → j < m →
      Real.sqrt (∑ c, (x j c - x i c) ^ 2) = Real.sqrt (∑ c, (x' j c - x' i c) ^ 2)) →
    runDbscan x m count = runDbscan x' m count

/-- **C120**, what holds: the labels do not change when the plane is shifted, scaled by a common
factor, reflected at an axis or its axes are exchanged.  Missing: other rotations. -/
theorem C120_partial (hn : 0 < n) (x x' : Nat → Fin n → ℝ) (m count : Nat) (hm : 0 < m)
    (s : ℝ) (hs : 0 < s) (axis : Equiv.Perm (Fin n)) (sign : Fin n → ℝ)
    (hsign : ∀ c, sign c = 1 ∨ sign c = -1) (shift : Fin n → ℝ)
    (h : ∀ i, i < m → ∀ c, x' i c = s * (sign c * x i (axis c)) + shift c) :
    runDbscan x' m count = runDbscan x m count := by
  have hspread : ∀ c, spread x' m c = s * spread x m (axis c) := by
    intro c
    obtain ⟨lo, hi, h1, h2⟩ := exists_bounds x hm (axis c)
    obtain ⟨⟨il, hil, hel⟩, hl⟩ := h1
    obtain ⟨⟨ih, hih, heh⟩, hh⟩ := h2
    rw [spread_eq ⟨⟨il, hil, hel⟩, hl⟩ ⟨⟨ih, hih, heh⟩, hh⟩]
    rcases hsign c with hc | hc
    · rw [spread_eq (lo := s * lo + shift c) (hi := s * hi + shift c)]
      · ring
      · refine ⟨⟨il, hil, by rw [h il hil, hc, hel]; ring⟩, ?_⟩
        rintro v ⟨a, ha, rfl⟩
        rw [h a ha, hc]
        have := hl ⟨a, ha, rfl⟩
        nlinarith
      · refine ⟨⟨ih, hih, by rw [h ih hih, hc, heh]; ring⟩, ?_⟩
        rintro v ⟨a, ha, rfl⟩
        rw [h a ha, hc]
        have := hh ⟨a, ha, rfl⟩
        nlinarith
    · rw [spread_eq (lo := s * (-hi) + shift c) (hi := s * (-lo) + shift c)]
      · ring
      · refine ⟨⟨ih, hih, by rw [h ih hih, hc, heh]; ring⟩, ?_⟩
        rintro v ⟨a, ha, rfl⟩
        rw [h a ha, hc]
        have := hh ⟨a, ha, rfl⟩
        nlinarith
      · refine ⟨⟨il, hil, by rw [h il hil, hc, hel]; ring⟩, ?_⟩
        rintro v ⟨a, ha, rfl⟩
        rw [h a ha, hc]
        have := hl ⟨a, ha, rfl⟩
        nlinarith
  have hprod : ∏ c, spread x' m c = s ^ n * ∏ c, spread x m c := by
    rw [Finset.prod_congr rfl fun c _ => hspread c, Finset.prod_mul_distrib,
      Equiv.prod_comp axis (fun c => spread x m c)]
    simp
  have heps : ∀ k, epsilon x' m k = s * epsilon x m k := by
    intro k
    apply epsilon_unique hn x' hm k (mul_nonneg hs.le (epsilon_nonneg x hm k))
    rw [mul_pow, epsilon_pow hn x hm k]
    unfold radicand
    rw [hprod]
    ring
  have hdist : ∀ i j, i < m → j < m → dist x' i j = s * dist x i j := by
    intro i j hi hj
    unfold dist
    have : ∑ c, (x' j c - x' i c) ^ 2 = s ^ 2 * ∑ c, (x j c - x i c) ^ 2 := by
      rw [Finset.mul_sum, ← Equiv.sum_comp axis fun c => s ^ 2 * (x j c - x i c) ^ 2]
      refine Finset.sum_congr rfl fun c _ => ?_
      rw [h i hi, h j hj]
      rcases hsign c with hc | hc <;> rw [hc] <;> ring
    rw [this, Real.sqrt_mul (by positivity), Real.sqrt_sq hs.le]
  unfold runDbscan
  have hnear : ∀ i j, i < m → j < m →
      nearReal x' (epsilon x' m (minPts count)) i j =
        nearReal x (epsilon x m (minPts count)) i j := by
    intro i j hi hj
    unfold nearReal
    rw [hdist i j hi hj, heps]
    simp only [decide_eq_decide]
    exact mul_le_mul_iff_right₀ hs
  exact dbscan_congr hnear _

/-- Different instances in a line parallel to an axis are never clustered: the radius is zero. -/
theorem C120_flat_partial (hn : 0 < n) (x : Nat → Fin n → ℝ) (m count : Nat) (c : Fin n) (v : ℝ)
    (hflat : ∀ i, i < m → x i c = v) (hdiff : ∀ i j, i < m → j < m → x i = x j → i = j) (p : Nat)
    (hp : p < m) : (runDbscan x m count)[p]? = some (-1) := by
  have hm : 0 < m := by omega
  have he := epsilon_flat hn hm hflat (minPts count)
  obtain ⟨d, hd, -, hn'⟩ := (C58_clustered (k := minPts count)
    (near := nearReal x (epsilon x m (minPts count))) (m := m)
    (fun a b _ _ => nearReal_symm _ _ a b)
    (fun a _ => nearReal_refl x (epsilon_nonneg x hm _) a)).2 p hp
  rw [runDbscan, hd, hn']
  rintro ⟨q, hl, hq⟩
  have hqm : q < m := by
    rcases hl.cases_tail with h | ⟨r, -, h⟩
    · rw [h]; exact hp
    · exact h.1
  unfold Core at hq
  have hsub : ((Finset.range m).filter fun r =>
      nearReal x (epsilon x m (minPts count)) q r = true) ⊆ {q} := by
    intro r hr
    simp only [Finset.mem_filter, Finset.mem_range] at hr
    have h1 : dist x q r ≤ 0 := by simpa [nearReal, he] using hr.2
    rw [Finset.mem_singleton]
    exact hdiff r q hr.1 hqm (dist_eq_zero h1).symm
  have := Finset.card_le_card hsub
  have h3 : 3 ≤ minPts count := le_max_right _ _
  simp at this
  omega

/-- **C120** is false: twelve instances at distance 5 in a row, once along the first axis and once
along the direction (3, 4).  The distances are the same; in the second case the third instance
is in a cluster, in the first no instance is. -/
theorem C120_refuted : ¬ DistancesDecide 2 := by
  intro h
  have h1 := h (fun i => ![5 * (i : ℝ), 0]) (fun i => ![3 * (i : ℝ), 4 * (i : ℝ)]) 12 12 (by
    intro i j _ _
    congr 1
    simp only [Fin.sum_univ_two, Matrix.cons_val_zero, Matrix.cons_val_one]
    ring)
  have h2 := C120_flat_partial (by norm_num) (fun i => ![5 * (i : ℝ), 0]) 12 12 1 0
    (by intro i _; simp) (by
      intro i j _ _ hij
      have := congrFun hij 0
      simpa using this) 2 (by norm_num)
  rw [h1] at h2
  have hk : minPts 12 = 3 := rfl
  set x : Nat → Fin 2 → ℝ := fun i => ![3 * (i : ℝ), 4 * (i : ℝ)] with hx
  have hs : ∀ c : Fin 2, spread x 12 c = ![33, 44] c := by
    intro c
    rw [spread_eq (lo := 0) (hi := ![33, 44] c)]
    · simp
    · refine ⟨⟨0, by norm_num, by fin_cases c <;> simp [hx]⟩, ?_⟩
      rintro v ⟨i, -, rfl⟩
      fin_cases c <;> simp [hx]
    · refine ⟨⟨11, by norm_num, by fin_cases c <;> simp [hx] <;> norm_num⟩, ?_⟩
      rintro v ⟨i, hi, rfl⟩
      have : (i : ℝ) ≤ 11 := by exact_mod_cast Nat.le_of_lt_succ hi
      fin_cases c <;> simp [hx] <;> linarith
  have heps : 10 ≤ epsilon x 12 3 := by
    have h3 := epsilon_pow (by norm_num) x (m := 12) (by norm_num) 3
    have h4 : radicand x 12 3 = 363 / Real.pi := by
      unfold radicand
      have hg : Real.Gamma (0.5 * (2 : Nat) + 1) = 1 := by
        have : (0.5 : ℝ) * (2 : Nat) + 1 = 1 + 1 := by norm_num
        rw [this, Real.Gamma_add_one one_ne_zero, Real.Gamma_one, one_mul]
      rw [Fin.prod_univ_two, hs, hs, hg, Real.sqrt_sq Real.pi_pos.le]
      simp only [Matrix.cons_val_zero, Matrix.cons_val_one]
      have := Real.pi_pos
      field_simp
      norm_num
    rw [h4] at h3
    have h5 : (100 : ℝ) ≤ 363 / Real.pi := by
      rw [le_div_iff₀ Real.pi_pos]
      have := Real.pi_lt_d2
      linarith
    have h6 := epsilon_nonneg x (m := 12) (by norm_num) 3
    nlinarith
  obtain ⟨d, hd, hc, -⟩ := (C58_clustered (k := 3) (near := nearReal x (epsilon x 12 3)) (m := 12)
    (fun a b _ _ => nearReal_symm _ _ a b)
    (fun a _ => nearReal_refl x (epsilon_nonneg x (by norm_num) _) a)).2 2 (by norm_num)
  have hcl : Clustered (nearReal x (epsilon x 12 3)) 12 3 2 := by
    refine ⟨2, Relation.ReflTransGen.refl, ?_⟩
    unfold Core
    have hsub : ({0, 1, 2, 3} : Finset Nat) ⊆ (Finset.range 12).filter fun r =>
        nearReal x (epsilon x 12 3) 2 r = true := by
      intro r hr
      have hr4 : r < 4 := by
        simp only [Finset.mem_insert, Finset.mem_singleton] at hr
        omega
      simp only [Finset.mem_filter, Finset.mem_range]
      refine ⟨by omega, ?_⟩
      have : dist x 2 r ≤ 10 := by
        unfold dist
        rw [Real.sqrt_le_iff]
        refine ⟨by norm_num, ?_⟩
        simp only [Fin.sum_univ_two, hx, Matrix.cons_val_zero, Matrix.cons_val_one]
        interval_cases r <;> norm_num
      simp only [nearReal, decide_eq_true_eq]
      linarith
    have := Finset.card_le_card hsub
    simpa using this
  have := hc hcl
  rw [runDbscan, hk, hd] at h2
  simp only [Option.some.injEq] at h2
  omega

/-- Non-vacuity for C120: four instances, scaled by 2, with the axes exchanged, the first
reflected, and shifted. -/
example : runDbscan (fun i => ![-2 * (i : ℝ) ^ 2 + 7, 2 * (i : ℝ) - 1]) 4 9 =
    runDbscan (fun i => ![(i : ℝ), (i : ℝ) ^ 2]) 4 9 := by
  refine C120_partial (by norm_num) _ _ 4 9 (by norm_num) 2 (by norm_num) (Equiv.swap 0 1)
    ![-1, 1] (by intro c; fin_cases c <;> simp) ![7, -1] ?_
  intro i _ c
  fin_cases c
  · simp
  · simp; ring

/-- Non-vacuity for the flat case: the instances of the refutation. -/
example : (runDbscan (fun i => ![5 * (i : ℝ), 0]) 12 12)[7]? = some (-1) :=
  C120_flat_partial (by norm_num) (fun i => ![5 * (i : ℝ), 0]) 12 12 1 0
    (by intro i _; simp) (by
      intro i j _ _ hij
      have := congrFun hij 0
      simpa using this) 7 (by norm_num)

end Verif.Dbscan
