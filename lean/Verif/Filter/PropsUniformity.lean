import Verif.Filter.UniformityLemmas
import Mathlib.Tactic.FinCases
import Mathlib.Tactic.NormNum
import Mathlib.Data.Fin.VecNotation
/-!
# C118: the uniformity score of a subset
-/
set_option autoImplicit false
set_option linter.unusedSectionVars false

namespace Verif.Filter

/-- **C118, value.** For at least two instances whose nearest other instances are at the distances
`near`, the score is one minus the ratio of their sample standard deviation to their mean; it is NaN
exactly when the mean is zero. -/
theorem C118_value {n : Nat} (h2 : 2 ≤ n) (x : Fin n → List ℝ) (near : Fin n → ℝ)
    (h : ∀ j, NearestOther x j (near j)) :
    uniformity (List.ofFn x) =
      if (∑ j, near j) / n = 0 then none
      else some (1 - Real.sqrt ((∑ j, (near j - (∑ k, near k) / n) ^ 2) / ((n : ℝ) - 1)) /
        ((∑ j, near j) / n)) := by
  unfold uniformity
  rw [if_neg (by simp; omega), filterMap_nearest h, score, mean_ofFn, std_ofFn]

/-- **C118, at most one.** The score of a subset never exceeds one, and is one exactly if every
instance is equally far from its nearest neighbour. -/
theorem C118_at_most_one {n : Nat} (x : Fin n → List ℝ) (near : Fin n → ℝ)
    (h : ∀ j, NearestOther x j (near j)) (u : ℝ) (hu : uniformity (List.ofFn x) = some u) :
    u ≤ 1 ∧ (u = 1 ↔ ∀ i j, near i = near j) := by
  have h2 : 2 ≤ n := by
    by_contra hn
    unfold uniformity at hu
    rw [if_pos (by simp; omega)] at hu
    cases hu
  rw [C118_value h2 x near h] at hu
  split at hu
  · cases hu
  next hm =>
  have hu := Option.some.inj hu
  have hn : (0 : ℝ) < n := by
    have : 0 < n := by omega
    exact_mod_cast this
  have hn1 : (0 : ℝ) < (n : ℝ) - 1 := by
    have : (2 : ℝ) ≤ n := by exact_mod_cast h2
    linarith
  have hpos : 0 < (∑ j, near j) / n :=
    lt_of_le_of_ne (div_nonneg (Finset.sum_nonneg fun j _ => (h j).nonneg) hn.le) (Ne.symm hm)
  generalize hmd : (∑ j, near j) / (n : ℝ) = m at hu hpos hm ⊢
  have hs := Real.sqrt_nonneg ((∑ j, (near j - m) ^ 2) / ((n : ℝ) - 1))
  refine ⟨by rw [← hu]; linarith [div_nonneg hs hpos.le], ?_⟩
  have key : u = 1 ↔ ∑ j, (near j - m) ^ 2 = 0 := by
    rw [← hu, sub_eq_self, div_eq_zero_iff, or_iff_left hm, Real.sqrt_eq_zero', div_le_iff₀ hn1]
    rw [zero_mul]
    exact ⟨fun hle => le_antisymm hle (Finset.sum_nonneg fun j _ => sq_nonneg _), fun he => he.le⟩
  rw [key, Finset.sum_eq_zero_iff_of_nonneg fun j _ => sq_nonneg _]
  constructor
  · intro he i j
    have hi := pow_eq_zero_iff (two_ne_zero) |>.1 (he i (Finset.mem_univ i))
    have hj := pow_eq_zero_iff (two_ne_zero) |>.1 (he j (Finset.mem_univ j))
    linarith
  · intro he i _
    have : m = near i := by
      rw [← hmd, Finset.sum_congr rfl fun j _ => he j i, Finset.sum_const, Finset.card_univ,
        Fintype.card_fin, nsmul_eq_mul, mul_comm, mul_div_assoc, div_self hn.ne', mul_one]
    rw [this, sub_self]
    simp

/-- **C118, defined.** The score is a number exactly if there are at least two instances and some
instance differs from all others (is at a positive distance from its nearest neighbour). -/
theorem C118_defined {n : Nat} (x : Fin n → List ℝ) :
    (∃ u, uniformity (List.ofFn x) = some u) ↔
      2 ≤ n ∧ ∃ j, ∀ i, i ≠ j → 0 < euclid (x i) (x j) := by
  by_cases h2 : 2 ≤ n
  · choose near hnear using exists_nearest h2 x
    rw [C118_value h2 x near hnear]
    have hn : (n : ℝ) ≠ 0 := by
      have : n ≠ 0 := by omega
      exact_mod_cast this
    have hzero : (∑ j, near j) / n = 0 ↔ ∀ j, near j = 0 := by
      rw [div_eq_zero_iff, or_iff_left hn, Finset.sum_eq_zero_iff_of_nonneg fun j _ => (hnear j).nonneg]
      simp
    constructor
    · rintro ⟨u, hu⟩
      split at hu
      · cases hu
      next hm =>
      rw [hzero] at hm
      push Not at hm
      obtain ⟨j, hj⟩ := hm
      exact ⟨h2, j, fun i hi =>
        lt_of_lt_of_le (lt_of_le_of_ne (hnear j).nonneg (Ne.symm hj)) ((hnear j).2 i hi)⟩
    · rintro ⟨-, j, hj⟩
      rw [if_neg]
      · exact ⟨_, rfl⟩
      · rw [hzero]
        intro hall
        obtain ⟨⟨i, hij, hi⟩, -⟩ := hnear j
        have := hj i hij
        rw [hi, hall j] at this
        exact lt_irrefl _ this
  · constructor
    · rintro ⟨u, hu⟩
      unfold uniformity at hu
      rw [if_pos (by simp; omega)] at hu
      cases hu
    · rintro ⟨h, -⟩
      exact absurd h h2

/-- **C118, order.** The score does not depend on the order of the instances. -/
theorem C118_order {n : Nat} (x : Fin n → List ℝ) (σ : Equiv.Perm (Fin n)) :
    uniformity (List.ofFn fun i => x (σ i)) = uniformity (List.ofFn x) := by
  by_cases h2 : 2 ≤ n
  · choose near hnear using exists_nearest h2 x
    have h' : ∀ j, NearestOther (fun i => x (σ i)) j (near (σ j)) := by
      intro j
      obtain ⟨⟨i, hij, hi⟩, hle⟩ := hnear (σ j)
      refine ⟨⟨σ.symm i, ?_, ?_⟩, ?_⟩
      · intro he
        exact hij (by rw [← he, Equiv.apply_symm_apply])
      · simp only [Equiv.apply_symm_apply, hi]
      · intro k hk
        exact hle (σ k) (fun he => hk (σ.injective he))
    rw [C118_value h2 _ _ h', C118_value h2 _ _ hnear]
    rw [Equiv.sum_comp σ near, Equiv.sum_comp σ fun j => (near j - (∑ k, near k) / (n : ℝ)) ^ 2]
  · unfold uniformity
    rw [if_pos (by simp; omega), if_pos (by simp; omega)]

/-- **C118, units.** The score does not change when all features are multiplied by the same number. -/
theorem C118_units {n : Nat} (x : Fin n → List ℝ) (c : ℝ) (hc : c ≠ 0) :
    uniformity (List.ofFn fun i => (x i).map (c * ·)) = uniformity (List.ofFn x) := by
  by_cases h2 : 2 ≤ n
  · choose near hnear using exists_nearest h2 x
    have hc' : 0 < |c| := abs_pos.2 hc
    have h' : ∀ j, NearestOther (fun i => (x i).map (c * ·)) j (|c| * near j) := by
      intro j
      obtain ⟨⟨i, hij, hi⟩, hle⟩ := hnear j
      refine ⟨⟨i, hij, by rw [euclid_scale, hi]⟩, ?_⟩
      intro k hk
      rw [euclid_scale]
      exact mul_le_mul_of_nonneg_left (hle k hk) hc'.le
    rw [C118_value h2 _ _ h', C118_value h2 _ _ hnear]
    rw [← Finset.mul_sum, mul_div_assoc]
    generalize (∑ j, near j) / (n : ℝ) = m
    have hs : ∑ j, (|c| * near j - |c| * m) ^ 2 = |c| ^ 2 * ∑ j, (near j - m) ^ 2 := by
      rw [Finset.mul_sum]
      exact Finset.sum_congr rfl fun j _ => by ring
    rw [hs, mul_div_assoc, Real.sqrt_mul (sq_nonneg _), Real.sqrt_sq hc'.le,
      mul_div_mul_left _ _ hc'.ne']
    by_cases hm : m = 0
    · simp [hm]
    · simp [hm, hc]
  · unfold uniformity
    rw [if_pos (by simp; omega), if_pos (by simp; omega)]

/-! Three points on a line at 0, 1 and 2: every instance has its nearest neighbour at distance 1. -/

theorem line_nearest (j : Fin 3) : NearestOther ![[(0 : ℝ)], [1], [2]] j 1 := by
  have e : ∀ a b : ℝ, euclid [a] [b] = |a - b| := by
    intro a b
    simp [euclid, Real.sqrt_sq_eq_abs]
  fin_cases j
  · refine ⟨⟨1, by decide, ?_⟩, ?_⟩
    · simp [e]
    · intro i hi
      fin_cases i <;> simp [e] at hi ⊢
  · refine ⟨⟨0, by decide, ?_⟩, ?_⟩
    · simp [e]
    · intro i hi
      fin_cases i <;> simp [e] at hi ⊢
      norm_num
  · refine ⟨⟨1, by decide, ?_⟩, ?_⟩
    · simp [e]
      norm_num
    · intro i hi
      fin_cases i <;> simp [e] at hi ⊢
      norm_num

example : uniformity (List.ofFn ![[(0 : ℝ)], [1], [2]]) = some 1 := by
  rw [C118_value (by omega) _ _ line_nearest]
  simp

end Verif.Filter
