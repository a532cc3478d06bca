import Verif.Pilot.Props
import Mathlib.Tactic.Linarith
/-!
# The smallest error of a reconstruction from two coordinates

No reconstruction of the rows of a matrix from two coordinates per row has an error below the sum of
the eigenvalues of the products of its columns, except the two largest.
-/
set_option autoImplicit false
set_option linter.unusedSectionVars false

namespace Verif.Pilot

open Matrix

variable {K : Type} [Field K] [LinearOrder K] [IsStrictOrderedRing K] {p n q m : Nat}

/-! ### Two orthogonal directions -/

theorem quad_nonneg {s t : K} (a : K) (hs : 0 ≤ s) (h0 : s = 0 → t = 0) :
    0 ≤ a ^ 2 * s - 2 * a * t + t ^ 2 / s := by
  rcases eq_or_lt_of_le hs with h | h
  · rw [← h, h0 h.symm]
    simp
  · have e : a ^ 2 * s - 2 * a * t + t ^ 2 / s = (a * s - t) ^ 2 / s := by
      field_simp
      ring
    rw [e]
    exact div_nonneg (sq_nonneg _) hs

theorem dot_zero {u : Fin m → K} (f : Fin m → K) (h : u ⬝ᵥ u = 0) : f ⬝ᵥ u = 0 := by
  rw [dotProduct_self_eq_zero.1 h]
  simp

theorem self_nonneg (u : Fin m → K) : 0 ≤ u ⬝ᵥ u :=
  Finset.sum_nonneg fun r _ => mul_self_nonneg (u r)

/-- The squared distance to a combination of two orthogonal directions. -/
theorem expand {f u₁ u₂ : Fin m → K} (h : u₁ ⬝ᵥ u₂ = 0) (a b : K) :
    ∑ r, (f r - (a * u₁ r + b * u₂ r)) ^ 2 = f ⬝ᵥ f + (a ^ 2 * (u₁ ⬝ᵥ u₁) - 2 * a * (f ⬝ᵥ u₁)) +
      (b ^ 2 * (u₂ ⬝ᵥ u₂) - 2 * b * (f ⬝ᵥ u₂)) := by
  have e : ∑ r, (f r - (a * u₁ r + b * u₂ r)) ^ 2 = f ⬝ᵥ f + (a ^ 2 * (u₁ ⬝ᵥ u₁) - 2 * a * (f ⬝ᵥ u₁)) +
      (b ^ 2 * (u₂ ⬝ᵥ u₂) - 2 * b * (f ⬝ᵥ u₂)) + 2 * a * b * (u₁ ⬝ᵥ u₂) := by
    unfold dotProduct
    simp only [Finset.mul_sum, ← Finset.sum_add_distrib, ← Finset.sum_sub_distrib]
    exact Finset.sum_congr rfl fun r _ => by ring
  rw [e, h, mul_zero, add_zero]

theorem bessel {f u₁ u₂ : Fin m → K} (h : u₁ ⬝ᵥ u₂ = 0) (a b : K) :
    f ⬝ᵥ f - (f ⬝ᵥ u₁) ^ 2 / (u₁ ⬝ᵥ u₁) - (f ⬝ᵥ u₂) ^ 2 / (u₂ ⬝ᵥ u₂) ≤
      ∑ r, (f r - (a * u₁ r + b * u₂ r)) ^ 2 := by
  rw [expand h]
  have h1 := quad_nonneg a (self_nonneg u₁) (dot_zero f)
  have h2 := quad_nonneg b (self_nonneg u₂) (dot_zero f)
  linarith

theorem quad_min {s t : K} (h0 : s = 0 → t = 0) :
    (t / s) ^ 2 * s - 2 * (t / s) * t = -(t ^ 2 / s) := by
  by_cases h : s = 0
  · rw [h0 h]
    simp
  · field_simp
    ring

/-- The squares of the coordinates along two orthogonal directions are at most the square of the
length. -/
theorem bessel_le {f u₁ u₂ : Fin m → K} (h : u₁ ⬝ᵥ u₂ = 0) :
    (f ⬝ᵥ u₁) ^ 2 / (u₁ ⬝ᵥ u₁) + (f ⬝ᵥ u₂) ^ 2 / (u₂ ⬝ᵥ u₂) ≤ f ⬝ᵥ f := by
  have e := expand (f := f) h ((f ⬝ᵥ u₁) / (u₁ ⬝ᵥ u₁)) ((f ⬝ᵥ u₂) / (u₂ ⬝ᵥ u₂))
  rw [quad_min (dot_zero f), quad_min (dot_zero f)] at e
  have h0 : 0 ≤ ∑ r, (f r - ((f ⬝ᵥ u₁) / (u₁ ⬝ᵥ u₁) * u₁ r + (f ⬝ᵥ u₂) / (u₂ ⬝ᵥ u₂) * u₂ r)) ^ 2 :=
    Finset.sum_nonneg fun r _ => sq_nonneg _
  linarith

/-- Two directions span the same as two orthogonal ones. -/
theorem orthogonalise (b₁ b₂ : Fin m → K) : ∃ (c : K) (u : Fin m → K), b₁ ⬝ᵥ u = 0 ∧
    ∀ r, b₂ r = c * b₁ r + u r := by
  refine ⟨(b₁ ⬝ᵥ b₂) / (b₁ ⬝ᵥ b₁), fun r => b₂ r - (b₁ ⬝ᵥ b₂) / (b₁ ⬝ᵥ b₁) * b₁ r, ?_, fun r => by ring⟩
  have e : b₁ ⬝ᵥ (fun r => b₂ r - (b₁ ⬝ᵥ b₂) / (b₁ ⬝ᵥ b₁) * b₁ r) =
      b₁ ⬝ᵥ b₂ - (b₁ ⬝ᵥ b₂) / (b₁ ⬝ᵥ b₁) * (b₁ ⬝ᵥ b₁) := by
    generalize (b₁ ⬝ᵥ b₂) / (b₁ ⬝ᵥ b₁) = c
    unfold dotProduct
    rw [Finset.mul_sum, ← Finset.sum_sub_distrib]
    exact Finset.sum_congr rfl fun r _ => by ring
  rw [e]
  by_cases h : b₁ ⬝ᵥ b₁ = 0
  · rw [h, mul_zero, sub_zero, dotProduct_comm]
    exact dot_zero _ h
  · rw [div_mul_cancel₀ _ h, sub_self]

/-! ### Weights -/

/-- Weights between 0 and 1 with a sum of at most 2 pick up at most the two largest values. -/
theorem weights_le {d w : Fin m → K} {e₀ e₁ : Fin m} (hd : ∀ k, 0 ≤ d k) (hw : ∀ k, 0 ≤ w k)
    (hw1 : ∀ k, w k ≤ 1) (hsum : ∑ k, w k ≤ 2) (h01 : d e₁ ≤ d e₀) (hr : ∀ r, r ≠ e₀ → d r ≤ d e₁) :
    ∑ k, d k * w k ≤ d e₀ + d e₁ := by
  have h1 : ∑ k, d k * w k ≤ ∑ k, (d e₁ * w k + if k = e₀ then (d e₀ - d e₁) * w k else 0) := by
    refine Finset.sum_le_sum fun k _ => ?_
    by_cases hk : k = e₀
    · rw [if_pos hk, hk]
      linarith
    · rw [if_neg hk, add_zero]
      exact mul_le_mul_of_nonneg_right (hr k hk) (hw k)
  rw [Finset.sum_add_distrib, ← Finset.mul_sum, Finset.sum_ite_eq' Finset.univ e₀, if_pos (Finset.mem_univ _)] at h1
  have h2 := mul_le_mul_of_nonneg_left hsum (hd e₁)
  have h3 := mul_le_mul_of_nonneg_left (hw1 e₀) (sub_nonneg.2 h01)
  linarith

/-! ### The eigenvectors -/

theorem parseval {v : Matrix (Fin m) (Fin m) K} (hv : v.transpose * v = 1) (u : Fin m → K) :
    ∑ k, ((fun r => v r k) ⬝ᵥ u) ^ 2 = u ⬝ᵥ u := by
  have hv' : v * v.transpose = 1 := mul_eq_one_comm.1 hv
  have e : ∑ k, ((fun r => v r k) ⬝ᵥ u) ^ 2 = (v.transpose *ᵥ u) ⬝ᵥ (v.transpose *ᵥ u) :=
    Finset.sum_congr rfl fun k _ => pow_two _
  rw [e, Matrix.dotProduct_mulVec, Matrix.vecMul_transpose, Matrix.mulVec_mulVec, hv',
    Matrix.one_mulVec]

theorem adjoint {r s : Nat} (a : Matrix (Fin r) (Fin s) K) (u : Fin s → K) (t : Fin r → K) :
    (a *ᵥ u) ⬝ᵥ t = u ⬝ᵥ (a.transpose *ᵥ t) := by
  rw [dotProduct_comm, Matrix.dotProduct_mulVec, dotProduct_comm, ← Matrix.mulVec_transpose]

theorem spectral {g v : Matrix (Fin m) (Fin m) K} {d : Fin m → K} (hv : v.transpose * v = 1)
    (he : Eigen g d v) : g = v * diagonal d * v.transpose := by
  have hv' : v * v.transpose = 1 := mul_eq_one_comm.1 hv
  have h : g * v = v * diagonal d := by
    ext i k
    rw [mul_apply, he.vector, mul_diagonal, mul_comm]
  rw [← h, Matrix.mul_assoc, hv', Matrix.mul_one]

theorem quadratic {f : Matrix (Fin p) (Fin m) K} {v : Matrix (Fin m) (Fin m) K} {d : Fin m → K}
    (hv : v.transpose * v = 1) (he : Eigen (f.transpose * f) d v) (u : Fin m → K) :
    ∑ i, (f i ⬝ᵥ u) ^ 2 = ∑ k, d k * ((fun r => v r k) ⬝ᵥ u) ^ 2 := by
  have e : ∑ i, (f i ⬝ᵥ u) ^ 2 = (f *ᵥ u) ⬝ᵥ (f *ᵥ u) :=
    Finset.sum_congr rfl fun k _ => pow_two _
  have e2 : ∑ k, d k * ((fun r => v r k) ⬝ᵥ u) ^ 2 =
      (v.transpose *ᵥ u) ⬝ᵥ (diagonal d *ᵥ (v.transpose *ᵥ u)) := by
    unfold dotProduct
    refine Finset.sum_congr rfl fun k _ => ?_
    rw [mulVec_diagonal]
    have : (v.transpose *ᵥ u) k = ∑ r, v r k * u r := rfl
    rw [this]
    ring
  rw [e, e2, adjoint, Matrix.mulVec_mulVec, spectral hv he, adjoint v.transpose, transpose_transpose,
    Matrix.mulVec_mulVec, Matrix.mulVec_mulVec]

theorem trace_eigen {f : Matrix (Fin p) (Fin m) K} {v : Matrix (Fin m) (Fin m) K} {d : Fin m → K}
    (hv : v.transpose * v = 1) (he : Eigen (f.transpose * f) d v) : sq f = ∑ k, d k := by
  rw [sq_trace, spectral hv he, Matrix.trace_mul_comm, ← Matrix.mul_assoc, hv, Matrix.one_mul,
    trace_diagonal]

/-- The eigenvalues of products of columns are not negative. -/
theorem eigen_nonneg {f : Matrix (Fin p) (Fin m) K} {v : Matrix (Fin m) (Fin m) K} {d : Fin m → K}
    (he : Eigen (f.transpose * f) d v) (k : Fin m) : 0 ≤ d k := by
  have h1 : (f *ᵥ fun r => v r k) ⬝ᵥ (f *ᵥ fun r => v r k) = d k := by
    rw [adjoint, Matrix.mulVec_mulVec]
    have : (f.transpose * f) *ᵥ (fun r => v r k) = fun i => d k * v i k := by
      funext i
      exact he.vector i k
    rw [this]
    have e : (fun r => v r k) ⬝ᵥ (fun i => d k * v i k) = d k * ∑ i, v i k ^ 2 := by
      unfold dotProduct
      rw [Finset.mul_sum]
      exact Finset.sum_congr rfl fun r _ => by ring
    rw [e, he.unit, mul_one]
  rw [← h1]
  exact self_nonneg _

theorem div_self_le_one' (s : K) : s / s ≤ 1 := by
  by_cases h : s = 0
  · rw [h]
    simp
  · rw [div_self h]

/-- **Eckart and Young**, two directions: the error of a reconstruction from two coordinates is at
least the sum of all eigenvalues but the two largest. -/
theorem eckart {f : Matrix (Fin p) (Fin m) K} {v : Matrix (Fin m) (Fin m) K} {d : Fin m → K}
    (hv : v.transpose * v = 1) (he : Eigen (f.transpose * f) d v) {e₀ e₁ : Fin m}
    (h01 : d e₁ ≤ d e₀) (hr : ∀ r, r ≠ e₀ → d r ≤ d e₁) (z : Fin p → Fin 2 → K)
    (b : Fin 2 → Fin m → K) :
    ∑ k, d k - (d e₀ + d e₁) ≤ ∑ i, ∑ j, (f i j - (z i 0 * b 0 j + z i 1 * b 1 j)) ^ 2 := by
  obtain ⟨c, u, hu, hb⟩ := orthogonalise (b 0) (b 1)
  have hrow : ∀ i, f i ⬝ᵥ f i - (f i ⬝ᵥ b 0) ^ 2 / (b 0 ⬝ᵥ b 0) - (f i ⬝ᵥ u) ^ 2 / (u ⬝ᵥ u) ≤
      ∑ j, (f i j - (z i 0 * b 0 j + z i 1 * b 1 j)) ^ 2 := by
    intro i
    have h1 := bessel (f := f i) hu (z i 0 + z i 1 * c) (z i 1)
    have e : ∑ j, (f i j - (z i 0 * b 0 j + z i 1 * b 1 j)) ^ 2 =
        ∑ r, (f i r - ((z i 0 + z i 1 * c) * b 0 r + z i 1 * u r)) ^ 2 :=
      Finset.sum_congr rfl fun j _ => by rw [hb]; ring
    rw [e]
    exact h1
  refine le_trans ?_ (Finset.sum_le_sum fun i _ => hrow i)
  rw [Finset.sum_sub_distrib, Finset.sum_sub_distrib, ← Finset.sum_div, ← Finset.sum_div,
    quadratic hv he, quadratic hv he]
  have htr : ∑ i, f i ⬝ᵥ f i = ∑ k, d k := by
    rw [← trace_eigen hv he]
    exact Finset.sum_congr rfl fun i _ => Finset.sum_congr rfl fun j _ => (pow_two _).symm
  rw [htr]
  have hsplit : (∑ k, d k * ((fun r => v r k) ⬝ᵥ b 0) ^ 2) / (b 0 ⬝ᵥ b 0) +
      (∑ k, d k * ((fun r => v r k) ⬝ᵥ u) ^ 2) / (u ⬝ᵥ u) =
      ∑ k, d k * (((fun r => v r k) ⬝ᵥ b 0) ^ 2 / (b 0 ⬝ᵥ b 0) +
        ((fun r => v r k) ⬝ᵥ u) ^ 2 / (u ⬝ᵥ u)) := by
    rw [Finset.sum_div, Finset.sum_div, ← Finset.sum_add_distrib]
    exact Finset.sum_congr rfl fun k _ => by ring
  have hle := weights_le (d := d)
    (w := fun k => ((fun r => v r k) ⬝ᵥ b 0) ^ 2 / (b 0 ⬝ᵥ b 0) +
        ((fun r => v r k) ⬝ᵥ u) ^ 2 / (u ⬝ᵥ u)) (e₀ := e₀) (e₁ := e₁)
    (eigen_nonneg he)
    (fun k => add_nonneg (div_nonneg (sq_nonneg _) (self_nonneg _))
      (div_nonneg (sq_nonneg _) (self_nonneg _)))
    (fun k => by
      refine le_trans (bessel_le hu) (le_of_eq ?_)
      rw [← he.unit k]
      exact Finset.sum_congr rfl fun r _ => (pow_two _).symm)
    (by
      rw [Finset.sum_add_distrib, ← Finset.sum_div, ← Finset.sum_div, parseval hv, parseval hv]
      have h1 := div_self_le_one' (b 0 ⬝ᵥ b 0)
      have h2 := div_self_le_one' (u ⬝ᵥ u)
      linarith)
    h01 hr
  rw [← hsplit] at hle
  linarith

/-! ### Projections -/

/-- What two orthonormal directions leave, and what they keep. -/
theorem sq_split {r s t : Nat} (w : Matrix (Fin r) (Fin t) K) (g : Matrix (Fin r) (Fin s) K)
    (h : w.transpose * w = 1) :
    sq g = sq (g - w * (w.transpose * g)) + sq (w.transpose * g) := by
  have horth : w.transpose * (g - w * (w.transpose * g)) = 0 := by
    rw [Matrix.mul_sub, ← Matrix.mul_assoc w.transpose w, h, Matrix.one_mul, sub_self]
  rw [← sq_isometry w (w.transpose * g) h, ← sq_add _ _ _ horth, sub_add_cancel]

theorem sq_contract {r s t : Nat} (w : Matrix (Fin r) (Fin t) K) (g : Matrix (Fin r) (Fin s) K)
    (h : w.transpose * w = 1) : sq (w.transpose * g) ≤ sq g := by
  rw [sq_split w g h]
  have := sq_nonneg' (g - w * (w.transpose * g))
  linarith

end Verif.Pilot
