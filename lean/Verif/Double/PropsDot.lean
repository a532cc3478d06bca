import Verif.Double.Dot
import Verif.Double.Lemmas
import Mathlib.Algebra.BigOperators.Group.List.Basic
import Mathlib.Algebra.Order.BigOperators.Group.List
import Mathlib.Tactic.Linarith
import Mathlib.Tactic.Positivity
/-!
# The projection in double precision: C186
-/
set_option autoImplicit false
set_option linter.unusedSectionVars false

namespace Verif.Double

open Verif (Num)

/-! ### Specification -/

/-- The coordinate without rounding: the sum of the products. -/
def exact (a x : Nat → ℚ) (n : Nat) : ℚ := ((List.range n).map fun i => a i * x i).sum

/-- The sum of the sizes of the products. -/
def mass (a x : Nat → ℚ) (n : Nat) : ℚ := ((List.range n).map fun i => |a i * x i|).sum

/-- `s` adds the first `n` products, each once. -/
def Adds (s : Sum) (n : Nat) : Prop := s.terms.Perm (List.range n)

/-- A vector of numbers as numpy holds it. -/
def held (a : Nat → ℚ) : Nat → Num := fun i => .fin (a i)

/-- The error of a sum of `n` products. -/
def dotError (a x : Nat → ℚ) (n : Nat) : ℚ := n / 2 ^ 52 * mass a x n + n / 2 ^ 1073

/-- The property: the coordinates have about sixteen correct digits. -/
def DigitsCorrect : Prop :=
  ∀ (a x : Nat → ℚ) (n : Nat) (s : Sum), (∀ i, IsDouble (a i)) → (∀ i, IsDouble (x i)) → Adds s n →
    n ≤ 2 ^ 20 → mass a x n ≤ 2 ^ 1000 →
    ∃ r : ℚ, s.value (held a) (held x) = .fin r ∧ |r - exact a x n| ≤ |exact a x n| * (n / 2 ^ 52)

/-! ### Helpers -/

/-- The sum of the products of a list of numbers. -/
def sumOf (a x : Nat → ℚ) (l : List Nat) : ℚ := (l.map fun i => a i * x i).sum
/-- The sum of their sizes. -/
def massOf (a x : Nat → ℚ) (l : List Nat) : ℚ := (l.map fun i => |a i * x i|).sum

theorem sumOf_append (a x : Nat → ℚ) (l m : List Nat) :
    sumOf a x (l ++ m) = sumOf a x l + sumOf a x m := by simp [sumOf]

theorem massOf_append (a x : Nat → ℚ) (l m : List Nat) :
    massOf a x (l ++ m) = massOf a x l + massOf a x m := by simp [massOf]

theorem massOf_nonneg (a x : Nat → ℚ) (l : List Nat) : 0 ≤ massOf a x l := by
  refine List.sum_nonneg ?_
  simp only [List.mem_map, forall_exists_index, and_imp]
  rintro _ i - rfl
  exact abs_nonneg _

theorem abs_sumOf (a x : Nat → ℚ) (l : List Nat) : |sumOf a x l| ≤ massOf a x l := by
  induction l with
  | nil => simp [sumOf, massOf]
  | cons i l ih =>
    have h1 : sumOf a x (i :: l) = a i * x i + sumOf a x l := by simp [sumOf]
    have h2 : massOf a x (i :: l) = |a i * x i| + massOf a x l := by simp [massOf]
    rw [h1, h2]
    exact (abs_add_le _ _).trans (add_le_add le_rfl ih)

/-- One rounding after an error that is already bounded. -/
theorem round_step {u c B S y : ℚ} {N : ℕ} (hu : u = 1 / 2 ^ 53) (hc : c = 1 / 2 ^ 1074)
    (h1 : 1 ≤ N) (hN : N ≤ 2 ^ 20) (hB : B ≤ 2 ^ 1000) (hS : |S| ≤ B)
    (hy : |y - S| ≤ 2 * u * (N - 1) * B + (2 * N - 2) * c) :
    ∃ r, toDouble y = .fin r ∧ |r - S| ≤ 2 * u * N * B + (2 * N - 1) * c := by
  have hB0 : 0 ≤ B := (abs_nonneg S).trans hS
  have he := toBits_error y
  have hη : (1 : ℚ) / 2 ^ 1075 = c / 2 := by rw [hc, pow_succ]; ring
  have hyu : |y| / 2 ^ 53 = u * |y| := by rw [hu]; ring
  rw [hη, hyu] at he
  have hu0 : 0 < u := by rw [hu]; positivity
  have hc0 : 0 < c := by rw [hc]; positivity
  have hN1 : (1 : ℚ) ≤ N := by exact_mod_cast h1
  have hNu : (N : ℚ) * u ≤ 1 / 4 := by
    have : (N : ℚ) ≤ 2 ^ 20 := by exact_mod_cast hN
    rw [hu]
    calc (N : ℚ) * (1 / 2 ^ 53) ≤ 2 ^ 20 * (1 / 2 ^ 53) := by
          apply mul_le_mul_of_nonneg_right this; positivity
      _ ≤ 1 / 4 := by norm_num
  have hNc : (N : ℚ) * c ≤ 1 / 4 := by
    refine le_trans (mul_le_mul_of_nonneg_left ?_ (by linarith)) hNu
    rw [hc, hu]
    exact one_div_le_one_div_of_le (by positivity) (pow_le_pow_right₀ (by norm_num) (by norm_num))
  have hlim : 4 * B + 4 < limit := by
    have e : (4 : ℚ) * 2 ^ 1000 + 4 < limit := by
      unfold limit
      have e1 : (2 : ℚ) ^ 1024 = 2 ^ 24 * 2 ^ 1000 := by rw [← pow_add]
      have e2 : (1 : ℚ) ≤ 2 ^ 1000 := one_le_pow₀ (by norm_num)
      rw [e1]
      generalize (2 : ℚ) ^ 1000 = m at e2 ⊢
      linarith
    generalize (2 : ℚ) ^ 1000 = m at e hB
    linarith
  clear hB hu hc hη hyu hN h1
  have hyS : |y| ≤ B + |y - S| := by
    have : |y| ≤ |y - S| + |S| := by
      have := abs_add_le (y - S) S
      rwa [sub_add_cancel] at this
    linarith
  have hNB : (N : ℚ) * u * B ≤ 1 / 4 * B := mul_le_mul_of_nonneg_right hNu hB0
  have hE : |y - S| ≤ B / 2 + 1 / 2 := by
    have : 2 * u * (N - 1) * B ≤ B / 2 := by nlinarith [mul_nonneg hu0.le hB0]
    nlinarith
  have hfin : |toBits y| < limit := by
    have h2 : |toBits y| ≤ |toBits y - y| + |y| := by
      have := abs_add_le (toBits y - y) y
      rwa [sub_add_cancel] at this
    have hu1 : u ≤ 1 / 4 := by nlinarith
    have hc1 : c ≤ 1 / 4 := by nlinarith
    have : u * |y| ≤ 1 / 4 * |y| := mul_le_mul_of_nonneg_right hu1 (abs_nonneg _)
    linarith
  refine ⟨toBits y, ?_, ?_⟩
  · have := abs_lt.1 hfin
    unfold toDouble
    rw [if_neg (not_le.2 this.2), if_neg (not_le.2 this.1)]
  · have h2 : |toBits y - S| ≤ |toBits y - y| + |y - S| := by
      have := abs_add_le (toBits y - y) (y - S)
      rwa [sub_add_sub_cancel] at this
    have h3 : u * |y| ≤ u * (B + |y - S|) := mul_le_mul_of_nonneg_left hyS hu0.le
    have h4 : u * |y - S| ≤ u * (2 * u * (N - 1) * B + (2 * N - 2) * c) :=
      mul_le_mul_of_nonneg_left hy hu0.le
    have h5 : u * (2 * u * (N - 1) * B) ≤ u * B := by
      refine mul_le_mul_of_nonneg_left ?_ hu0.le
      nlinarith [mul_nonneg hu0.le hB0]
    have h6 : u * ((2 * N - 2) * c) ≤ c / 2 := by
      have : u * (2 * N - 2) ≤ 1 / 2 := by nlinarith
      nlinarith
    nlinarith

theorem value_error (a x : Nat → ℚ) (s : Sum) (hn : s.terms.length ≤ 2 ^ 20)
    (hm : massOf a x s.terms ≤ 2 ^ 1000) : 1 ≤ s.terms.length ∧
    ∃ r : ℚ, s.value (held a) (held x) = .fin r ∧ |r - sumOf a x s.terms| ≤
      2 * (1 / 2 ^ 53) * s.terms.length * massOf a x s.terms +
        (2 * s.terms.length - 1) * (1 / 2 ^ 1074) := by
  induction s with
  | prod i =>
    refine ⟨by simp [Sum.terms], ?_⟩
    have hs : sumOf a x (Sum.prod i).terms = a i * x i := by simp [sumOf, Sum.terms]
    obtain ⟨r, h1, h2⟩ := round_step (y := a i * x i) (N := 1) rfl rfl le_rfl (by norm_num) hm
      (abs_sumOf a x (Sum.prod i).terms) (by rw [hs]; simp)
    refine ⟨r, ?_, by simpa [Sum.terms] using h2⟩
    simp only [Sum.value, held, mul, Num.fin_mul, rounded]
    exact h1
  | add s t ihs iht =>
    simp only [Sum.terms, List.length_append, massOf_append] at hn hm
    have hs0 := massOf_nonneg a x s.terms
    have ht0 := massOf_nonneg a x t.terms
    have hms : massOf a x s.terms ≤ 2 ^ 1000 := (le_add_of_nonneg_right ht0).trans hm
    have hmt : massOf a x t.terms ≤ 2 ^ 1000 := (le_add_of_nonneg_left hs0).trans hm
    obtain ⟨hs1, r, hr, er⟩ := ihs (by omega) hms
    obtain ⟨ht1, q, hq, eq⟩ := iht (by omega) hmt
    refine ⟨by simp [Sum.terms]; omega, ?_⟩
    simp only [Sum.terms, List.length_append, massOf_append, sumOf_append]
    obtain ⟨v, hv, ev⟩ := round_step (u := 1 / 2 ^ 53) (c := 1 / 2 ^ 1074) (y := r + q)
      (S := sumOf a x s.terms + sumOf a x t.terms) (B := massOf a x s.terms + massOf a x t.terms)
      (N := s.terms.length + t.terms.length) rfl rfl (by omega) hn hm
      ((abs_add_le _ _).trans (add_le_add (abs_sumOf a x _) (abs_sumOf a x _))) (by
        have e : r + q - (sumOf a x s.terms + sumOf a x t.terms) =
          (r - sumOf a x s.terms) + (q - sumOf a x t.terms) := by ring
        rw [e]
        refine (abs_add_le _ _).trans ((add_le_add er eq).trans ?_)
        have hs2 : (1 : ℚ) ≤ s.terms.length := by exact_mod_cast hs1
        have ht2 : (1 : ℚ) ≤ t.terms.length := by exact_mod_cast ht1
        push_cast
        have hu : (0 : ℚ) < 1 / 2 ^ 53 := by positivity
        generalize (1 : ℚ) / 2 ^ 53 = u at hu ⊢
        generalize (1 : ℚ) / 2 ^ 1074 = c
        generalize (s.terms.length : ℚ) = n at hs2 ⊢
        generalize (t.terms.length : ℚ) = m at ht2 ⊢
        generalize massOf a x s.terms = A at hs0 ⊢
        generalize massOf a x t.terms = A' at ht0 ⊢
        have h1 : 0 ≤ u * (m - 1) * A := mul_nonneg (mul_nonneg hu.le (by linarith)) hs0
        have h2 : 0 ≤ u * (n - 1) * A' := mul_nonneg (mul_nonneg hu.le (by linarith)) ht0
        nlinarith)
    refine ⟨v, ?_, ?_⟩
    · simp only [Sum.value, add, hr, hq, Num.fin_add, rounded]
      exact hv
    · push_cast at ev ⊢
      exact ev
  | fma s i ihs =>
    simp only [Sum.terms, List.length_append, List.length_singleton, massOf_append] at hn hm
    have hs0 := massOf_nonneg a x s.terms
    have ht0 := massOf_nonneg a x [i]
    have hms : massOf a x s.terms ≤ 2 ^ 1000 := (le_add_of_nonneg_right ht0).trans hm
    obtain ⟨hs1, r, hr, er⟩ := ihs (by omega) hms
    refine ⟨by simp [Sum.terms], ?_⟩
    simp only [Sum.terms, List.length_append, List.length_singleton, massOf_append, sumOf_append]
    have hi : sumOf a x [i] = a i * x i := by simp [sumOf]
    obtain ⟨v, hv, ev⟩ := round_step (u := 1 / 2 ^ 53) (c := 1 / 2 ^ 1074) (y := r + a i * x i)
      (S := sumOf a x s.terms + sumOf a x [i]) (B := massOf a x s.terms + massOf a x [i])
      (N := s.terms.length + 1) rfl rfl (by omega) hn hm
      ((abs_add_le _ _).trans (add_le_add (abs_sumOf a x _) (abs_sumOf a x _))) (by
        have e : r + a i * x i - (sumOf a x s.terms + sumOf a x [i]) =
          r - sumOf a x s.terms := by rw [hi]; ring
        rw [e]
        refine er.trans ?_
        have hs2 : (1 : ℚ) ≤ s.terms.length := by exact_mod_cast hs1
        push_cast
        have hu : (0 : ℚ) < 1 / 2 ^ 53 := by positivity
        have hc : (0 : ℚ) < 1 / 2 ^ 1074 := by positivity
        generalize (1 : ℚ) / 2 ^ 53 = u at hu ⊢
        generalize (1 : ℚ) / 2 ^ 1074 = c at hc ⊢
        generalize (s.terms.length : ℚ) = n at hs2 ⊢
        generalize massOf a x s.terms = A at hs0 ⊢
        generalize massOf a x [i] = A' at ht0 ⊢
        have h2 : 0 ≤ u * n * A' := mul_nonneg (mul_nonneg hu.le (by linarith)) ht0
        nlinarith)
    refine ⟨v, ?_, ?_⟩
    · simp only [Sum.value, hr, held, Num.fin_mul, Num.fin_add, rounded]
      exact hv
    · push_cast at ev ⊢
      exact ev

/-! ### C186 -/

/-- **C186, the true part.**  In whatever order the products are added, and with or without fused
multiply-add, the coordinate is finite and differs from the exact one by at most `n / 2 ^ 52` times the
sum of the sizes of the products (and an amount below the least normal number). -/
theorem C186_partial (a x : Nat → ℚ) (n : Nat) (s : Sum) (hs : Adds s n) (hn : n ≤ 2 ^ 20)
    (hm : mass a x n ≤ 2 ^ 1000) :
    ∃ r : ℚ, s.value (held a) (held x) = .fin r ∧ |r - exact a x n| ≤ dotError a x n := by
  have hl : s.terms.length = n := by rw [hs.length_eq, List.length_range]
  have h1 : sumOf a x s.terms = exact a x n := (hs.map _).sum_eq
  have h2 : massOf a x s.terms = mass a x n := (hs.map _).sum_eq
  obtain ⟨h0, r, hr, he⟩ := value_error a x s (by omega) (by rw [h2]; exact hm)
  refine ⟨r, hr, ?_⟩
  rw [hl, h1, h2] at he
  refine he.trans ?_
  unfold dotError
  have e1 : (2 : ℚ) * (1 / 2 ^ 53) * n * mass a x n = n / 2 ^ 52 * mass a x n := by
    rw [pow_succ]; ring
  have e2 : (2 * (n : ℚ) - 1) * (1 / 2 ^ 1074) ≤ n / 2 ^ 1073 := by
    have : (1 : ℚ) / 2 ^ 1073 = 2 * (1 / 2 ^ 1074) := by rw [pow_succ _ 1073]; ring
    have h3 : (n : ℚ) / 2 ^ 1073 = n * (2 * (1 / 2 ^ 1074)) := by rw [← this]; ring
    rw [h3]
    have : (0 : ℚ) < 1 / 2 ^ 1074 := by positivity
    generalize (1 : ℚ) / 2 ^ 1074 = c at this ⊢
    linarith
  rw [e1]
  exact add_le_add le_rfl e2

/-- **C186, recomputing.**  Two computations of the same coordinate, e.g. PILOT's and one from the
exported files, differ by at most twice the bound. -/
theorem C186_recomputed_partial (a x : Nat → ℚ) (n : Nat) (s t : Sum) (hs : Adds s n) (ht : Adds t n)
    (hn : n ≤ 2 ^ 20) (hm : mass a x n ≤ 2 ^ 1000) :
    ∃ r q : ℚ, s.value (held a) (held x) = .fin r ∧ t.value (held a) (held x) = .fin q ∧
      |r - q| ≤ 2 * dotError a x n := by
  obtain ⟨r, hr, er⟩ := C186_partial a x n s hs hn hm
  obtain ⟨q, hq, eq⟩ := C186_partial a x n t ht hn hm
  refine ⟨r, q, hr, hq, ?_⟩
  have : r - q = (r - exact a x n) - (q - exact a x n) := by ring
  rw [this]
  exact (abs_sub _ _).trans (by linarith)

/-- **C186, the order of the instances along an axis.**  If the exact coordinates of two instances
differ by more than the errors, the computed ones are in the same order. -/
theorem C186_order_partial (a x y : Nat → ℚ) (n : Nat) (s t : Sum) (hs : Adds s n) (ht : Adds t n)
    (hn : n ≤ 2 ^ 20) (hx : mass a x n ≤ 2 ^ 1000) (hy : mass a y n ≤ 2 ^ 1000)
    (h : exact a x n + dotError a x n + dotError a y n < exact a y n) :
    Num.lt (s.value (held a) (held x)) (t.value (held a) (held y)) = true := by
  obtain ⟨r, hr, er⟩ := C186_partial a x n s hs hn hx
  obtain ⟨q, hq, eq⟩ := C186_partial a y n t ht hn hy
  rw [hr, hq]
  simp only [Num.lt, decide_eq_true_eq]
  have h1 := (abs_le.1 er).2
  have h2 := (abs_le.1 eq).1
  linarith

/-- **C186 is false.**  Terms that cancel leave no correct digit: `1 + 2⁻⁶⁰ - 1` is computed as 0. -/
theorem C186_refuted : ¬ DigitsCorrect := by
  intro h
  let a : Nat → ℚ := fun i => if i = 1 then 1 / 2 ^ 60 else 1
  let x : Nat → ℚ := fun i => if i = 2 then -1 else 1
  have ha : ∀ i, IsDouble (a i) := by
    intro i
    show IsDouble (if i = 1 then 1 / 2 ^ 60 else 1)
    split
    · refine ⟨⟨1, -60, by norm_num [zpow_neg], by norm_num, by norm_num⟩, ?_⟩
      have : |(1 : ℚ) / 2 ^ 60| ≤ 1 := by norm_num [abs_of_pos]
      exact lt_of_le_of_lt this (one_lt_pow₀ (by norm_num) (by norm_num))
    · exact isDouble_one
  have hx : ∀ i, IsDouble (x i) := by
    intro i
    show IsDouble (if i = 2 then -1 else 1)
    split
    · exact_mod_cast isDouble_int (k := -1) (by norm_num)
    · exact isDouble_one
  have hm : mass a x 3 ≤ 3 := by
    show (((List.range 3).map fun i => |(if i = 1 then 1 / 2 ^ 60 else 1) * (if i = 2 then -1 else 1)|).sum
      : ℚ) ≤ 3
    simp only [List.range, List.range.loop, List.map_cons, List.map_nil, List.sum_cons, List.sum_nil]
    norm_num [abs_of_pos]
  have hv : (Sum.add (.add (.prod 0) (.prod 1)) (.prod 2)).value (held a) (held x) = .fin 0 := by
    decide +kernel
  have he : exact a x 3 = 1 / 2 ^ 60 := by decide +kernel
  obtain ⟨r, hr, hb⟩ := h a x 3 (.add (.add (.prod 0) (.prod 1)) (.prod 2)) ha hx
    (List.Perm.refl _) (by norm_num) (hm.trans (by
      calc (3 : ℚ) ≤ 2 ^ 2 := by norm_num
        _ ≤ 2 ^ 1000 := pow_le_pow_right₀ (by norm_num) (by norm_num)))
  rw [hv] at hr
  cases hr
  rw [he] at hb
  norm_num at hb

/-- Non-vacuity for C186: three products, added in two orders and with fused multiply-add. -/
example : Adds (.fma (.fma (.prod 2) 0) 1) 3 ∧ Adds (.add (.prod 0) (.add (.prod 1) (.prod 2))) 3 ∧
    mass (fun i => i + 1) (fun i => 1 / 2 - i) 3 = 6 ∧
    exact (fun i => i + 1) (fun i => 1 / 2 - i) 3 = -5 ∧
    (Sum.fma (.fma (.prod 2) 0) 1).value (held fun i => i + 1) (held fun i => 1 / 2 - i) = .fin (-5) := by
  unfold Adds
  refine ⟨by decide, by decide, by decide +kernel, by decide +kernel, by decide +kernel⟩

end Verif.Double
