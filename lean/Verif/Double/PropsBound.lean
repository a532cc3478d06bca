import Verif.Double.BoundErrorLemmas
import Verif.Prelim.PropsData
import Mathlib.Algebra.Order.Group.MinMax
/-!
# Bounding outliers in double precision (C175)
-/
set_option autoImplicit false
set_option linter.unusedSectionVars false

namespace Verif.Double

open Verif (Num)

/-- The full claim: bounding a column of doubles loses no value and never exchanges two values. -/
def BoundKeepsOrder : Prop :=
  ∀ (col : List ℚ), (∀ q ∈ col, IsDouble q) → ∀ (i j : Nat) (a b : ℚ), col[i]? = some a → col[j]? = some b →
    a ≤ b → ∃ a' b', (boundCol col)[i]? = some (.fin a') ∧ (boundCol col)[j]? = some (.fin b') ∧ a' ≤ b'

/-- **C175** is false: for the column `-2^1023, 2^1023, 2^1023` the interquartile range overflows, the bounds
are infinite, `False * inf` is NaN and the whole column is lost. -/
theorem C175_refuted : ¬ BoundKeepsOrder := by
  intro hall
  have hd : IsDouble ((2 : ℚ) ^ 1023) := pow_two_double (by norm_num)
  have hs : bounds [-2 ^ 1023, 2 ^ 1023, 2 ^ 1023] = (.ninf, .pinf) := by
    have : List.mergeSort [-(2 : ℚ) ^ 1023, 2 ^ 1023, 2 ^ 1023] (fun a b => decide (a ≤ b)) =
        [-2 ^ 1023, 2 ^ 1023, 2 ^ 1023] := by
      refine List.mergeSort_of_pairwise ?_
      have h0 : (0 : ℚ) < 2 ^ 1023 := by positivity
      generalize (2 : ℚ) ^ 1023 = x at h0
      simp
      linarith
    unfold bounds
    rw [this]
    decide +kernel
  obtain ⟨a', b', h1, -⟩ := hall [-2 ^ 1023, 2 ^ 1023, 2 ^ 1023]
    (by
      intro q hq
      simp only [List.mem_cons, List.not_mem_nil, or_false] at hq
      rcases hq with rfl | rfl | rfl
      · exact isDouble_neg hd
      · exact hd
      · exact hd) 1 1 (2 ^ 1023) (2 ^ 1023) rfl rfl (le_refl _)
  unfold boundCol at h1
  rw [hs] at h1
  simp only [List.map_cons, List.getElem?_cons_succ, List.getElem?_cons_zero, Option.some.injEq] at h1
  revert h1
  have : boundEntry .ninf .pinf (.fin (2 ^ 1023)) = .nan := by decide +kernel
  rw [this]
  simp

/-- **C175, the true part.**  On a column of doubles of magnitude at most `2 ^ 999` the computed bounds are
doubles in the right order, and every value is clamped to them exactly.  Missing for the full property: larger
numbers. -/
theorem C175_clamp_partial {col : List ℚ} (hne : col ≠ []) (hd : ∀ q ∈ col, IsDouble q ∧ |q| ≤ 2 ^ 999) :
    ∃ lo hi : ℚ, bounds col = (.fin lo, .fin hi) ∧ IsDouble lo ∧ IsDouble hi ∧ lo ≤ hi ∧
      boundCol col = col.map fun q => .fin (max lo (min hi q)) := by
  obtain ⟨lo, hi, h1, h2, h3, h4⟩ := bounds_fits (K := 999) (by norm_num) hne hd
  refine ⟨lo, hi, h1, h2, h3, h4, ?_⟩
  unfold boundCol
  rw [h1]
  exact List.map_congr_left fun q hq => boundEntry_fin h2 h3 (hd q hq).1 h4

/-- **C175, the true part.**  On such a column no value is lost and no two values are exchanged. -/
theorem C175_partial {col : List ℚ} (hd : ∀ q ∈ col, IsDouble q ∧ |q| ≤ 2 ^ 999) {i j : Nat} {a b : ℚ}
    (hi : col[i]? = some a) (hj : col[j]? = some b) (hab : a ≤ b) :
    ∃ a' b', (boundCol col)[i]? = some (.fin a') ∧ (boundCol col)[j]? = some (.fin b') ∧ a' ≤ b' := by
  have hne : col ≠ [] := by rintro rfl; simp at hi
  obtain ⟨lo, hi', -, -, -, -, h⟩ := C175_clamp_partial hne hd
  rw [h]
  refine ⟨max lo (min hi' a), max lo (min hi' b), by simp [hi], by simp [hj], ?_⟩
  exact max_le_max_left _ (min_le_min_left _ hab)

/-- Clamping to bounds that are close gives values that are close. -/
theorem clamp_close {lo lo' hi hi' e : ℚ} (h : |lo - lo'| ≤ e) (h' : |hi - hi'| ≤ e) (q : ℚ) :
    |max lo (min hi q) - max lo' (min hi' q)| ≤ e := by
  have h0 : 0 ≤ e := (abs_nonneg _).trans h
  have h1 : |min hi q - min hi' q| ≤ |hi - hi'| := by
    simpa using abs_min_sub_min_le_max hi q hi' q
  refine (abs_max_sub_max_le_max _ _ _ _).trans (max_le h (h1.trans h'))

/-- **C175, the true part.**  On such a column every bounded value is, up to rounding, what exact arithmetic
gives: the value clamped to the median plus or minus five interquartile ranges (C41).  The error is at most about
`10 ^ -14` of the largest value. -/
theorem C175_error_partial {col : List ℚ} (hd : ∀ q ∈ col, IsDouble q ∧ |q| ≤ 2 ^ 999) {M : ℚ}
    (hM : ∀ q ∈ col, |q| ≤ M) (junk : Num × Num) {i : Nat} (hi : i < col.length) :
    ∃ v v', (boundCol col)[i]? = some (.fin v) ∧
      (Prelim.boundCol junk (col.map .fin))[i]? = some (.fin v') ∧
      |v - v'| ≤ 100 * M / 2 ^ 53 + 100 / 2 ^ 1075 := by
  have hne : col ≠ [] := by rintro rfl; simp at hi
  obtain ⟨lo, hi', hb, -, -, -, h⟩ := C175_clamp_partial hne hd
  obtain ⟨lo0, hi0, hb0, -, h0, -⟩ := Prelim.C41_clamp junk col hne
  obtain ⟨e1, e2⟩ := bounds_error (K := 999) (by norm_num) hne hd hM hb
  rw [hb0] at e1 e2
  refine ⟨max lo (min hi' col[i]), max lo0 (min hi0 col[i]), ?_, ?_, ?_⟩
  · rw [h]
    simp [hi]
  · rw [h0]
    simp [hi]
  · have : (100 : ℚ) / 2 ^ 1075 = 100 * eta := by
      unfold eta
      rw [mul_one_div]
    rw [this]
    exact clamp_close e1 e2 _

/-- Non-vacuity: the value 100 is an outlier of this column of small integers. -/
example : (∀ q ∈ ([1, 2, 3, 4, 100] : List ℚ), IsDouble q ∧ |q| ≤ 2 ^ 999) ∧
    boundCol [1, 2, 3, 4, 100] = [.fin 1, .fin 2, .fin 3, .fin 4, .fin 13] := by
  constructor
  · have : ∀ k : ℤ, |k| ≤ 100 → IsDouble k ∧ |(k : ℚ)| ≤ 2 ^ 999 := by
      intro k hk
      refine ⟨isDouble_int (hk.trans (by norm_num)), ?_⟩
      have h1 : ((|k| : ℤ) : ℚ) ≤ 100 := by exact_mod_cast hk
      rw [Int.cast_abs] at h1
      refine h1.trans (le_trans (show (100 : ℚ) ≤ 2 ^ 7 by norm_num) (pow_le_pow_right₀ (by norm_num) (by norm_num)))
    intro q hq
    simp only [List.mem_cons, List.not_mem_nil, or_false] at hq
    rcases hq with rfl | rfl | rfl | rfl | rfl
    · exact_mod_cast this 1 (by norm_num)
    · exact_mod_cast this 2 (by norm_num)
    · exact_mod_cast this 3 (by norm_num)
    · exact_mod_cast this 4 (by norm_num)
    · exact_mod_cast this 100 (by norm_num)
  · unfold boundCol bounds
    rw [List.mergeSort_of_pairwise (by simp; norm_num)]
    decide +kernel

end Verif.Double
