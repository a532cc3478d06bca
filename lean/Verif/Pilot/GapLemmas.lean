import Verif.Pilot.EckartLemmas
import Verif.Pilot.PropsOptimal
import Verif.Pilot.PropsPicture
import Verif.Pilot.SpecGap
import Mathlib.Tactic.LinearCombination
/-!
# The reconstruction with the smallest error, when it is unique

The equality case of the theorem of Eckart and Young, and what it says about the best pictures of PILOT.
-/
set_option autoImplicit false
set_option linter.unusedSectionVars false

namespace Verif.Pilot

open Matrix

variable {K : Type} [Field K] [LinearOrder K] [IsStrictOrderedRing K] {p n q m : Nat}

/-- Weights that pick up the two largest values pick up nothing below them. -/
theorem weights_zero {d w : Fin m → K} {e₀ e₁ : Fin m} (hd : ∀ k, 0 ≤ d k) (hw : ∀ k, 0 ≤ w k)
    (hw1 : ∀ k, w k ≤ 1) (hsum : ∑ k, w k ≤ 2) (h01 : d e₁ ≤ d e₀)
    (hr : ∀ r, r ≠ e₀ → r ≠ e₁ → d r < d e₁) (hle : d e₀ + d e₁ ≤ ∑ k, d k * w k) :
    ∀ r, r ≠ e₀ → r ≠ e₁ → w r = 0 := by
  have hr' : ∀ r, r ≠ e₀ → d r ≤ d e₁ := by
    intro r h
    by_cases h1 : r = e₁
    · rw [h1]
    · exact (hr r h h1).le
  have h1 : ∑ k, (d e₁ - d k) * w k ≤ d e₁ - d e₀ := by
    have e : ∑ k, (d e₁ - d k) * w k = d e₁ * ∑ k, w k - ∑ k, d k * w k := by
      rw [Finset.mul_sum, ← Finset.sum_sub_distrib]
      exact Finset.sum_congr rfl fun k _ => by ring
    have := mul_le_mul_of_nonneg_left hsum (hd e₁)
    rw [e]
    linarith
  have h2 : ∑ k, (d e₁ - d k) * w k =
      (d e₁ - d e₀) * w e₀ + ∑ k ∈ Finset.univ.erase e₀, (d e₁ - d k) * w k :=
    (Finset.add_sum_erase _ _ (Finset.mem_univ e₀)).symm
  have h3 : d e₁ - d e₀ ≤ (d e₁ - d e₀) * w e₀ := by
    have := mul_le_mul_of_nonneg_left (hw1 e₀) (sub_nonneg.2 h01)
    linarith
  have hnn : ∀ k ∈ Finset.univ.erase e₀, 0 ≤ (d e₁ - d k) * w k := fun k hk =>
    mul_nonneg (sub_nonneg.2 (hr' k (Finset.ne_of_mem_erase hk))) (hw k)
  have h4 : ∑ k ∈ Finset.univ.erase e₀, (d e₁ - d k) * w k = 0 :=
    le_antisymm (by linarith) (Finset.sum_nonneg hnn)
  intro r hr0 hr1
  have h5 := (Finset.sum_eq_zero_iff_of_nonneg hnn).1 h4 r (Finset.mem_erase.2 ⟨hr0, Finset.mem_univ _⟩)
  rcases mul_eq_zero.1 h5 with h | h
  · exact absurd h (sub_pos.2 (hr r hr0 hr1)).ne'
  · exact h

theorem dot_of_ratio {u v : Fin m → K} (h : (v ⬝ᵥ u) ^ 2 / (u ⬝ᵥ u) = 0) : v ⬝ᵥ u = 0 := by
  rcases div_eq_zero_iff.1 h with h | h
  · exact pow_eq_zero_iff two_ne_zero |>.1 h
  · exact dot_zero _ h

/-- A direction orthogonal to all eigenvectors but two is a combination of the two. -/
theorem in_plane {v : Matrix (Fin m) (Fin m) K} (hv : v.transpose * v = 1) {e₀ e₁ : Fin m} (hne : e₀ ≠ e₁)
    {u : Fin m → K} (h : ∀ r, r ≠ e₀ → r ≠ e₁ → (fun j => v j r) ⬝ᵥ u = 0) (j : Fin m) :
    u j = ((fun j => v j e₀) ⬝ᵥ u) * v j e₀ + ((fun j => v j e₁) ⬝ᵥ u) * v j e₁ := by
  have hv' : v * v.transpose = 1 := mul_eq_one_comm.1 hv
  have e : u j = ∑ k, v j k * ((fun j => v j k) ⬝ᵥ u) := by
    have : (v *ᵥ (v.transpose *ᵥ u)) j = u j := by
      rw [Matrix.mulVec_mulVec, hv', Matrix.one_mulVec]
    rw [← this]
    rfl
  rw [e, ← Finset.add_sum_erase _ _ (Finset.mem_univ e₀),
    ← Finset.add_sum_erase _ _ (Finset.mem_erase.2 ⟨hne.symm, Finset.mem_univ e₁⟩), Finset.sum_eq_zero]
  · ring
  · intro k hk
    rw [h k (Finset.ne_of_mem_erase (Finset.mem_of_mem_erase hk)) (Finset.ne_of_mem_erase hk), mul_zero]

theorem orth {v : Matrix (Fin m) (Fin m) K} (hv : v.transpose * v = 1) (k l : Fin m) :
    (fun j => v j k) ⬝ᵥ (fun j => v j l) = if k = l then 1 else 0 := by
  have := congrFun (congrFun hv k) l
  rwa [mul_apply, one_apply] at this

/-- The squares of the coordinates along an eigenvector add up to its eigenvalue. -/
theorem along {f : Matrix (Fin p) (Fin m) K} {v : Matrix (Fin m) (Fin m) K} {d : Fin m → K}
    (hv : v.transpose * v = 1) (he : Eigen (f.transpose * f) d v) (e : Fin m) :
    ∑ i, (f i ⬝ᵥ fun j => v j e) ^ 2 = d e := by
  rw [quadratic hv he]
  simp only [orth hv]
  rw [Finset.sum_eq_single e]
  · simp
  · intro k _ hk
    simp [hk]
  · simp

/-- The error of a reconstruction inside the plane of two eigenvectors. -/
theorem plane_error {f : Matrix (Fin p) (Fin m) K} {v : Matrix (Fin m) (Fin m) K} {d : Fin m → K}
    (hv : v.transpose * v = 1) (he : Eigen (f.transpose * f) d v) {e₀ e₁ : Fin m} (hne : e₀ ≠ e₁)
    (s t : Fin p → K) :
    ∑ i, ∑ j, (f i j - (s i * v j e₀ + t i * v j e₁)) ^ 2 = (∑ k, d k - (d e₀ + d e₁)) +
      ((∑ i, (s i - f i ⬝ᵥ fun j => v j e₀) ^ 2) + ∑ i, (t i - f i ⬝ᵥ fun j => v j e₁) ^ 2) := by
  have h0 : (fun j => v j e₀) ⬝ᵥ (fun j => v j e₁) = 0 := by rw [orth hv, if_neg hne]
  have h1 : ∀ i, ∑ j, (f i j - (s i * v j e₀ + t i * v j e₁)) ^ 2 = f i ⬝ᵥ f i -
      (f i ⬝ᵥ fun j => v j e₀) ^ 2 - (f i ⬝ᵥ fun j => v j e₁) ^ 2 +
      ((s i - f i ⬝ᵥ fun j => v j e₀) ^ 2 + (t i - f i ⬝ᵥ fun j => v j e₁) ^ 2) := by
    intro i
    rw [expand (f := f i) h0 (s i) (t i), orth hv, orth hv, if_pos rfl, if_pos rfl]
    ring
  have htr : ∑ i, f i ⬝ᵥ f i = ∑ k, d k := by
    rw [← trace_eigen hv he]
    exact Finset.sum_congr rfl fun i _ => Finset.sum_congr rfl fun j _ => (pow_two _).symm
  simp only [h1]
  rw [Finset.sum_add_distrib, Finset.sum_add_distrib, Finset.sum_sub_distrib, Finset.sum_sub_distrib, htr,
    along hv he, along hv he]
  ring

/-- **Eckart and Young, the equality case.**  When the two largest eigenvalues are above all others, the
reconstruction from two coordinates with the smallest error is unique: the projection on the two eigenvectors. -/
theorem eckart_unique {f : Matrix (Fin p) (Fin m) K} {v : Matrix (Fin m) (Fin m) K} {d : Fin m → K}
    (hv : v.transpose * v = 1) (he : Eigen (f.transpose * f) d v) {e₀ e₁ : Fin m} (hne : e₀ ≠ e₁)
    (h01 : d e₁ ≤ d e₀) (hr : ∀ r, r ≠ e₀ → r ≠ e₁ → d r < d e₁) {z : Fin p → Fin 2 → K}
    {b : Fin 2 → Fin m → K}
    (hle : ∑ i, ∑ j, (f i j - (z i 0 * b 0 j + z i 1 * b 1 j)) ^ 2 ≤ ∑ k, d k - (d e₀ + d e₁)) (i : Fin p)
    (j : Fin m) : z i 0 * b 0 j + z i 1 * b 1 j =
      (f i ⬝ᵥ fun j => v j e₀) * v j e₀ + (f i ⬝ᵥ fun j => v j e₁) * v j e₁ := by
  obtain ⟨c, u, hu, hb⟩ := orthogonalise (b 0) (b 1)
  have hrow : ∀ i, f i ⬝ᵥ f i - (f i ⬝ᵥ b 0) ^ 2 / (b 0 ⬝ᵥ b 0) - (f i ⬝ᵥ u) ^ 2 / (u ⬝ᵥ u) ≤
      ∑ j, (f i j - (z i 0 * b 0 j + z i 1 * b 1 j)) ^ 2 := by
    intro i
    have h1 := bessel (f := f i) hu (z i 0 + z i 1 * c) (z i 1)
    have e : ∑ j, (f i j - (z i 0 * b 0 j + z i 1 * b 1 j)) ^ 2 =
        ∑ r, (f i r - ((z i 0 + z i 1 * c) * b 0 r + z i 1 * u r)) ^ 2 :=
      Finset.sum_congr rfl fun j _ => by rw [hb]; ring
    rw [e]
    exact h1
  have hle2 := le_trans (Finset.sum_le_sum fun i _ => hrow i) hle
  rw [Finset.sum_sub_distrib, Finset.sum_sub_distrib, ← Finset.sum_div, ← Finset.sum_div,
    quadratic hv he, quadratic hv he] at hle2
  have htr : ∑ i, f i ⬝ᵥ f i = ∑ k, d k := by
    rw [← trace_eigen hv he]
    exact Finset.sum_congr rfl fun i _ => Finset.sum_congr rfl fun j _ => (pow_two _).symm
  rw [htr] at hle2
  have hsplit : (∑ k, d k * ((fun r => v r k) ⬝ᵥ b 0) ^ 2) / (b 0 ⬝ᵥ b 0) +
      (∑ k, d k * ((fun r => v r k) ⬝ᵥ u) ^ 2) / (u ⬝ᵥ u) =
      ∑ k, d k * (((fun r => v r k) ⬝ᵥ b 0) ^ 2 / (b 0 ⬝ᵥ b 0) +
        ((fun r => v r k) ⬝ᵥ u) ^ 2 / (u ⬝ᵥ u)) := by
    rw [Finset.sum_div, Finset.sum_div, ← Finset.sum_add_distrib]
    exact Finset.sum_congr rfl fun k _ => by ring
  have hnn : ∀ (k : Fin m) (w : Fin m → K), 0 ≤ ((fun r => v r k) ⬝ᵥ w) ^ 2 / (w ⬝ᵥ w) :=
    fun k w => div_nonneg (sq_nonneg _) (self_nonneg _)
  have hzero := weights_zero (d := d)
    (w := fun k => ((fun r => v r k) ⬝ᵥ b 0) ^ 2 / (b 0 ⬝ᵥ b 0) +
        ((fun r => v r k) ⬝ᵥ u) ^ 2 / (u ⬝ᵥ u)) (e₀ := e₀) (e₁ := e₁)
    (eigen_nonneg he) (fun k => add_nonneg (hnn k _) (hnn k _))
    (fun k => by
      refine le_trans (bessel_le hu) (le_of_eq ?_)
      rw [orth hv, if_pos rfl])
    (by
      rw [Finset.sum_add_distrib, ← Finset.sum_div, ← Finset.sum_div, parseval hv, parseval hv]
      have h1 := div_self_le_one' (b 0 ⬝ᵥ b 0)
      have h2 := div_self_le_one' (u ⬝ᵥ u)
      linarith)
    h01 hr (by rw [← hsplit]; linarith)
  have hb0 : ∀ r, r ≠ e₀ → r ≠ e₁ → (fun j => v j r) ⬝ᵥ b 0 = 0 := by
    intro r h1 h2
    have := hzero r h1 h2
    exact dot_of_ratio (le_antisymm (by have := hnn r u; linarith) (hnn r _))
  have hu0 : ∀ r, r ≠ e₀ → r ≠ e₁ → (fun j => v j r) ⬝ᵥ u = 0 := by
    intro r h1 h2
    have := hzero r h1 h2
    exact dot_of_ratio (le_antisymm (by have := hnn r (b 0); linarith) (hnn r _))
  have p0 := in_plane hv hne hb0
  have pu := in_plane hv hne hu0
  generalize hα : (fun j => v j e₀) ⬝ᵥ b 0 = α at p0
  generalize hβ : (fun j => v j e₁) ⬝ᵥ b 0 = β at p0
  generalize hγ : (fun j => v j e₀) ⬝ᵥ u = γ at pu
  generalize hδ : (fun j => v j e₁) ⬝ᵥ u = δ at pu
  have hrec : ∀ i j, z i 0 * b 0 j + z i 1 * b 1 j =
      (z i 0 * α + z i 1 * (c * α + γ)) * v j e₀ + (z i 0 * β + z i 1 * (c * β + δ)) * v j e₁ := by
    intro i j
    rw [hb j, p0 j, pu j]
    ring
  simp only [hrec] at hle
  rw [plane_error hv he hne (fun i => z i 0 * α + z i 1 * (c * α + γ))
    (fun i => z i 0 * β + z i 1 * (c * β + δ))] at hle
  have n1 : 0 ≤ ∑ i, (z i 0 * α + z i 1 * (c * α + γ) - f i ⬝ᵥ fun j => v j e₀) ^ 2 :=
    Finset.sum_nonneg fun _ _ => sq_nonneg _
  have n2 : 0 ≤ ∑ i, (z i 0 * β + z i 1 * (c * β + δ) - f i ⬝ᵥ fun j => v j e₁) ^ 2 :=
    Finset.sum_nonneg fun _ _ => sq_nonneg _
  have z1 := (Finset.sum_eq_zero_iff_of_nonneg fun _ _ => sq_nonneg _).1 (le_antisymm (by linarith) n1) i
    (Finset.mem_univ _)
  have z2 := (Finset.sum_eq_zero_iff_of_nonneg fun _ _ => sq_nonneg _).1 (le_antisymm (by linarith) n2) i
    (Finset.mem_univ _)
  rw [hrec i j, sub_eq_zero.1 (pow_eq_zero_iff two_ne_zero |>.1 z1),
    sub_eq_zero.1 (pow_eq_zero_iff two_ne_zero |>.1 z2)]


/-! ### What the regression leaves -/

/-- The reconstruction error is the error of reconstructing the fitted performances, plus what the regression
leaves. -/
theorem residual_fitted {x : Matrix (Fin p) (Fin n) K} {y : Matrix (Fin p) (Fin q) K} {m : Matrix (Fin n) (Fin q) K}
    (hm : Regression x y m) {a : Matrix (Fin 2) (Fin n) K} {z : Matrix (Fin p) (Fin 2) K} (hz : Projects x a z)
    (b : Matrix (Fin n) (Fin 2) K) (c : Matrix (Fin 2) (Fin q) K) :
    residual x y z b c = residual x (x * m) z b c + sq (y - x * m) := by
  have horth : x.transpose * (y - x * m) = 0 := by
    ext t j
    rw [mul_apply]
    exact hm t j
  have h := sq_add x (y - x * m) (m - a.transpose * c) horth
  have hz' : z = x * a.transpose := by
    ext i k
    rw [hz i k, mul_apply]
    rfl
  have e1 : y - x * m + x * (m - a.transpose * c) = y - z * c := by
    rw [hz', Matrix.mul_sub, ← Matrix.mul_assoc]
    abel
  have e2 : x * (m - a.transpose * c) = x * m - z * c := by
    rw [hz', Matrix.mul_sub, ← Matrix.mul_assoc]
  rw [e1, e2] at h
  have e3 : ∀ y' : Matrix (Fin p) (Fin q) K, ∑ i, ∑ j, (y' i j - reconY z c i j) ^ 2 = sq (y' - z * c) := by
    intro y'
    refine Finset.sum_congr rfl fun i _ => Finset.sum_congr rfl fun j _ => ?_
    rw [Matrix.sub_apply, mul_apply, Fin.sum_univ_two]
    rfl
  unfold residual
  rw [e3, e3, h]
  ring

/-- The features and the fitted performances are linear in the features. -/
theorem xBar_linear (x : Matrix (Fin p) (Fin n) K) (m : Matrix (Fin n) (Fin q) K) :
    ∃ l : Matrix (Fin n) (Fin (n + q)) K, xBar x (x * m) = x * l := by
  refine ⟨xBar 1 m, ?_⟩
  ext i r
  rw [mul_apply]
  show Fin.append (x i) ((x * m) i) r = ∑ s, x i s * Fin.append ((1 : Matrix (Fin n) (Fin n) K) s) (m s) r
  refine Fin.addCases (fun j => ?_) (fun j => ?_) r
  · simp only [Fin.append_left]
    rw [← mul_apply, Matrix.mul_one]
  · simp only [Fin.append_right]
    rw [← mul_apply]

/-- The coordinates along the two leading eigenvectors, as in `analytic_solve`, pilot.py:222-260; only used in
proofs. -/
def leadingPoints {m : Nat} (f : Matrix (Fin p) (Fin m) K) (v : Matrix (Fin m) (Fin m) K) (e : Fin 2 → Fin m) :
    Matrix (Fin p) (Fin 2) K :=
  fun i k => f i ⬝ᵥ fun j => v j (e k)

/-- The reconstructions of every best picture are the same. -/
theorem best_recon {x : Matrix (Fin p) (Fin n) K} {y : Matrix (Fin p) (Fin q) K} {m : Matrix (Fin n) (Fin q) K}
    (hm : Regression x y m) {d : Fin (n + q) → K} {v : Matrix (Fin (n + q)) (Fin (n + q)) K}
    (hv : v.transpose * v = 1) (he : Eigen ((xBar x (x * m)).transpose * xBar x (x * m)) d v)
    {e : Fin 2 → Fin (n + q)} (hne : e 0 ≠ e 1) (h01 : d (e 1) ≤ d (e 0))
    (hr : ∀ r, r ≠ e 0 → r ≠ e 1 → d r < d (e 1)) {w : Fin (2 * (n + q) + 2 * n) → K}
    {a : Matrix (Fin 2) (Fin n) K} {b : Matrix (Fin n) (Fin 2) K} {c : Matrix (Fin 2) (Fin q) K}
    {z : Matrix (Fin p) (Fin 2) K} (ho : Optimal x y w) (hw : Encodes w a b c) (hz : Projects x a z) (i : Fin p)
    (r : Fin (n + q)) : z i 0 * direction b c 0 r + z i 1 * direction b c 1 r =
      leadingPoints (xBar x (x * m)) v e i 0 * v r (e 0) + leadingPoints (xBar x (x * m)) v e i 1 * v r (e 1) := by
  obtain ⟨l, hl⟩ := xBar_linear x m
  -- coefficients that reach the floor
  have hp : Projects x (fun k s => ∑ r, l s r * v r (e k)) (leadingPoints (xBar x (x * m)) v e) := by
    intro i k
    show xBar x (x * m) i ⬝ᵥ (fun j => v j (e k)) = _
    rw [hl]
    unfold dotProduct
    simp only [mul_apply, Finset.sum_mul, Finset.mul_sum]
    rw [Finset.sum_comm]
    exact Finset.sum_congr rfl fun s _ => Finset.sum_congr rfl fun r _ => mul_assoc _ _ _
  have h1 := ho a b c z hw hz _ (fun j k => v (Fin.castAdd q j) (e k)) (fun k j => v (Fin.natAdd n j) (e k)) _ hp
  rw [residual_fitted hm hz, residual_fitted hm hp (fun j k => v (Fin.castAdd q j) (e k))
    (fun k j => v (Fin.natAdd n j) (e k))] at h1
  have h2 := plane_error hv he hne (fun i => leadingPoints (xBar x (x * m)) v e i 0)
    (fun i => leadingPoints (xBar x (x * m)) v e i 1)
  have h3 : residual x (x * m) (leadingPoints (xBar x (x * m)) v e) (fun j k => v (Fin.castAdd q j) (e k))
      (fun k j => v (Fin.natAdd n j) (e k)) = ∑ k, d k - (d (e 0) + d (e 1)) := by
    refine (residual_directions _ _ _ _ _).trans ?_
    have e4 : ∀ k r, direction (fun j k => v (Fin.castAdd q j) (e k)) (fun k j => v (Fin.natAdd n j) (e k)) k r =
        v r (e k) := fun k r => direction_eq (fun r k => v r (e k)) k r
    simp only [e4]
    rw [h2]
    simp [leadingPoints]
  rw [h3] at h1
  have h4 : residual x (x * m) z b c ≤ ∑ k, d k - (d (e 0) + d (e 1)) := by linarith
  rw [residual_directions] at h4
  exact eckart_unique hv he hne h01 hr h4 i r

/-- A best picture is the points along the leading eigenvectors, after a linear change of the plane. -/
theorem best_points {x : Matrix (Fin p) (Fin n) K} {y : Matrix (Fin p) (Fin q) K} {m : Matrix (Fin n) (Fin q) K}
    (hm : Regression x y m) {d : Fin (n + q) → K} {v : Matrix (Fin (n + q)) (Fin (n + q)) K}
    (hv : v.transpose * v = 1) (he : Eigen ((xBar x (x * m)).transpose * xBar x (x * m)) d v)
    {e : Fin 2 → Fin (n + q)} (hne : e 0 ≠ e 1) (h01 : d (e 1) ≤ d (e 0))
    (hr : ∀ r, r ≠ e 0 → r ≠ e 1 → d r < d (e 1)) (hpos : 0 < d (e 1)) {z : Matrix (Fin p) (Fin 2) K}
    (hb : Best x y z) :
    ∃ t s : Matrix (Fin 2) (Fin 2) K, s * t = 1 ∧ leadingPoints (xBar x (x * m)) v e = z * t := by
  obtain ⟨w, a, b, c, ho, hw, hz⟩ := hb
  have hrec := best_recon hm hv he hne h01 hr ho hw hz
  let t : Matrix (Fin 2) (Fin 2) K := fun k l => ∑ r, direction b c k r * v r (e l)
  have hon : ∀ k l : Fin 2, ∑ r, v r (e k) * v r (e l) = if k = l then 1 else 0 := by
    intro k l
    have := orth hv (e k) (e l)
    unfold dotProduct at this
    rw [this]
    fin_cases k <;> fin_cases l <;> simp [hne, hne.symm]
  have ht : leadingPoints (xBar x (x * m)) v e = z * t := by
    ext i l
    rw [mul_apply, Fin.sum_univ_two]
    have e1 : ∑ r, (z i 0 * direction b c 0 r + z i 1 * direction b c 1 r) * v r (e l) = z i 0 * t 0 l + z i 1 * t 1 l := by
      simp only [t, Finset.mul_sum, ← Finset.sum_add_distrib]
      exact Finset.sum_congr rfl fun r _ => by ring
    rw [← e1]
    simp only [hrec]
    have e2 : ∑ r, (leadingPoints (xBar x (x * m)) v e i 0 * v r (e 0) +
        leadingPoints (xBar x (x * m)) v e i 1 * v r (e 1)) * v r (e l) =
        leadingPoints (xBar x (x * m)) v e i 0 * ∑ r, v r (e 0) * v r (e l) +
        leadingPoints (xBar x (x * m)) v e i 1 * ∑ r, v r (e 1) * v r (e l) := by
      simp only [Finset.mul_sum, ← Finset.sum_add_distrib]
      exact Finset.sum_congr rfl fun r _ => by ring
    rw [e2, hon, hon]
    fin_cases l <;> simp
  -- the products of the leading points
  have hG : (leadingPoints (xBar x (x * m)) v e).transpose * leadingPoints (xBar x (x * m)) v e =
      diagonal fun k => d (e k) := by
    have e3 : leadingPoints (xBar x (x * m)) v e = xBar x (x * m) * v.submatrix id e := by
      ext i k
      rw [mul_apply]
      rfl
    have hg := spectral hv he
    have e4 : v.transpose * v.submatrix id e =
        of fun l k => if l = e k then 1 else 0 := by
      ext l k
      rw [mul_apply]
      exact orth hv l (e k)
    have e5 : (v.submatrix id e).transpose * v =
        of fun k l => if l = e k then 1 else 0 := by
      have := congrArg transpose e4
      rw [transpose_mul, transpose_transpose] at this
      rw [this]
      rfl
    rw [e3, transpose_mul, Matrix.mul_assoc, ← Matrix.mul_assoc (xBar x (x * m)).transpose, hg, Matrix.mul_assoc,
      Matrix.mul_assoc, ← Matrix.mul_assoc _ v, e5, e4]
    ext k l
    rw [mul_apply]
    simp only [diagonal_mul, diagonal_apply, of_apply]
    fin_cases k <;> fin_cases l <;> simp [hne, hne.symm]
  have hdet : t.det ≠ 0 := by
    intro h0
    have := congrArg Matrix.det hG
    rw [ht, transpose_mul, Matrix.mul_assoc, Matrix.det_mul, Matrix.det_transpose, h0, zero_mul, Matrix.det_diagonal, Fin.prod_univ_two] at this
    have hp : 0 < d (e 0) * d (e 1) := mul_pos (lt_of_lt_of_le hpos h01) hpos
    rw [← this] at hp
    exact lt_irrefl _ hp
  exact ⟨t, t⁻¹, Matrix.nonsing_inv_mul t (isUnit_iff_ne_zero.2 hdet), ht⟩

/-- A run of the numerical solution whose optimiser reaches the smallest error draws a best picture. -/
theorem best_of_numerical {x : Matrix (Fin p) (Fin n) K} {y : Matrix (Fin p) (Fin q) K} {lib : Lib K p n q}
    {labels : List String} {opts : Options K n q} {out : Out K p n q} (hh : ∀ u, lib.half u = u)
    (ho : ∀ f guess, Optimal x y (lib.bfgs f guess).1) (ha : opts.analytic = false)
    (h : pilot lib x y labels opts = .ok out) : Best x y out.z := by
  obtain ⟨x0, idx, guess, alpha, _, _, _, _, hal, _, _, _, _, ea, ez, _⟩ := numerical_ok ha h
  have hal' : alpha = (lib.bfgs (errorFunction (xBar x y)) guess).1 := by
    rw [hal]
    funext i
    exact hh _
  refine ⟨alpha, _, _, _, hal' ▸ ho _ _, encodes_iff.2 ⟨ea, rfl, rfl⟩, fun i k => ?_⟩
  rw [ez, mul_apply]
  rfl

/-- A picture with an error no picture can undercut is a best picture. -/
theorem best_of_le {x : Matrix (Fin p) (Fin n) K} {y : Matrix (Fin p) (Fin q) K} {a : Matrix (Fin 2) (Fin n) K}
    {b : Matrix (Fin n) (Fin 2) K} {c : Matrix (Fin 2) (Fin q) K} {z : Matrix (Fin p) (Fin 2) K}
    (hz : Projects x a z) (h : ∀ z' b' c', residual x y z b c ≤ residual x y z' b' c') : Best x y z := by
  obtain ⟨w, hw, -⟩ := C135_space a b c
  refine ⟨w, a, b, c, ?_, hw, hz⟩
  intro a1 b1 c1 z1 he1 hz1 a2 b2 c2 z2 _
  obtain ⟨ea, eb, ec⟩ := encodes_iff.1 he1
  obtain ⟨fa, fb, fc⟩ := encodes_iff.1 hw
  rw [← fa] at ea
  rw [← fb] at eb
  rw [← fc] at ec
  subst ea eb ec
  have e1 : z1 = z := by
    funext i k
    rw [hz1 i k, hz i k]
  rw [e1]
  exact h _ _ _

end Verif.Pilot
