import Verif.Pilot.PropsVector
import Verif.Pilot.SpecPicture
import Mathlib.Tactic.LinearCombination
import Mathlib.Tactic.FinCases
/-!
# C212: which pictures of the instance space are equally good
-/
set_option autoImplicit false
set_option linter.unusedSectionVars false

namespace Verif.Pilot

open Matrix

variable {K : Type} [Field K] [LinearOrder K] [IsStrictOrderedRing K] {p n q : Nat}

/-- **C212, the error.**  Any linear change of the plane that can be undone gives coefficients with exactly the
same reconstruction error: the picture is changed by `t`, the coefficients of the reconstruction by its
inverse `s`. -/
theorem C212_same_error_partial {x : Matrix (Fin p) (Fin n) K} (y : Matrix (Fin p) (Fin q) K)
    {a : Matrix (Fin 2) (Fin n) K} (b : Matrix (Fin n) (Fin 2) K) (c : Matrix (Fin 2) (Fin q) K)
    {z : Matrix (Fin p) (Fin 2) K} (hz : Projects x a z) (t s : Matrix (Fin 2) (Fin 2) K) (hst : s * t = 1) :
    Projects x (fun k j => t k 0 * a 0 j + t k 1 * a 1 j) (fun i k => t k 0 * z i 0 + t k 1 * z i 1) ∧
    residual x y (fun i k => t k 0 * z i 0 + t k 1 * z i 1) (fun j k => b j 0 * s 0 k + b j 1 * s 1 k)
      (fun k j => s 0 k * c 0 j + s 1 k * c 1 j) = residual x y z b c := by
  have e00 : s 0 0 * t 0 0 + s 0 1 * t 1 0 = 1 := by
    have := congrFun (congrFun hst 0) 0
    simpa [mul_apply, Fin.sum_univ_two] using this
  have e01 : s 0 0 * t 0 1 + s 0 1 * t 1 1 = 0 := by
    have := congrFun (congrFun hst 0) 1
    simpa [mul_apply, Fin.sum_univ_two] using this
  have e10 : s 1 0 * t 0 0 + s 1 1 * t 1 0 = 0 := by
    have := congrFun (congrFun hst 1) 0
    simpa [mul_apply, Fin.sum_univ_two] using this
  have e11 : s 1 0 * t 0 1 + s 1 1 * t 1 1 = 1 := by
    have := congrFun (congrFun hst 1) 1
    simpa [mul_apply, Fin.sum_univ_two] using this
  refine ⟨fun i k => ?_, ?_⟩
  · simp only [hz i, Finset.mul_sum, ← Finset.sum_add_distrib]
    exact Finset.sum_congr rfl fun j _ => by ring
  · have key : ∀ (u v p0 p1 : K),
        (t 0 0 * u + t 0 1 * v) * (p0 * s 0 0 + p1 * s 1 0) + (t 1 0 * u + t 1 1 * v) * (p0 * s 0 1 + p1 * s 1 1) =
          u * p0 + v * p1 := by
      intro u v p0 p1
      linear_combination u * p0 * e00 + v * p0 * e01 + u * p1 * e10 + v * p1 * e11
    unfold residual reconX reconY
    congr 1
    · refine Finset.sum_congr rfl fun i _ => Finset.sum_congr rfl fun j _ => ?_
      rw [key]
    · refine Finset.sum_congr rfl fun i _ => Finset.sum_congr rfl fun j _ => ?_
      rw [← key (z i 0) (z i 1) (c 0 j) (c 1 j)]
      ring

/-- **C212, the shape.**  Two pictures with the same reconstructions differ by a linear change of the plane; it
can be undone if the instances do not lie on a line through the origin. -/
theorem C212_linear_partial {z z' : Matrix (Fin p) (Fin 2) K} {b b' : Matrix (Fin n) (Fin 2) K}
    {c c' : Matrix (Fin 2) (Fin q) K} (hx : ∀ i j, reconX z' b' i j = reconX z b i j)
    (hy : ∀ i j, reconY z' c' i j = reconY z c i j) (full : NoIdleDirection b' c') :
    ∃ t : Matrix (Fin 2) (Fin 2) K, (∀ i k, z' i k = t k 0 * z i 0 + t k 1 * z i 1) ∧
      (Planar z' → ∃ s : Matrix (Fin 2) (Fin 2) K, s * t = 1) := by
  -- the Gram matrix of the coefficients
  let g (k l : Fin 2) : K := (∑ j, b' j k * b' j l) + ∑ j, c' k j * c' l j
  let h (k l : Fin 2) : K := (∑ j, b j k * b' j l) + ∑ j, c k j * c' l j
  have sym : g 1 0 = g 0 1 := by
    simp only [g]
    congr 1 <;> exact Finset.sum_congr rfl fun j _ => mul_comm _ _
  have lin : ∀ (u v : Fin 2 → K) (w : Matrix (Fin n) (Fin 2) K) (d : Matrix (Fin 2) (Fin q) K) (l : Fin 2),
      u 0 * ((∑ j, w j 0 * b' j l) + ∑ j, d 0 j * c' l j) + u 1 * ((∑ j, w j 1 * b' j l) + ∑ j, d 1 j * c' l j) =
        (∑ j, (u 0 * w j 0 + u 1 * w j 1) * b' j l) + ∑ j, (u 0 * d 0 j + u 1 * d 1 j) * c' l j := by
    intro u v w d l
    simp only [mul_add, Finset.mul_sum, add_mul, Finset.sum_add_distrib]
    have e : ∀ (m : Nat) (a : K) (f r : Fin m → K), ∑ j, a * (f j * r j) = ∑ j, a * f j * r j :=
      fun m a f r => Finset.sum_congr rfl fun j _ => (mul_assoc _ _ _).symm
    simp only [e]
    ring
  have det : g 0 0 * g 1 1 - g 0 1 * g 0 1 ≠ 0 := by
    intro h0
    -- a vector in the kernel has no effect on the reconstructions
    have ker : ∀ u : Fin 2 → K, u 0 * g 0 0 + u 1 * g 1 0 = 0 → u 0 * g 0 1 + u 1 * g 1 1 = 0 →
        u 0 = 0 ∧ u 1 = 0 := by
      intro u h1 h2
      have hsq : (∑ j, (u 0 * b' j 0 + u 1 * b' j 1) ^ 2) + ∑ j, (u 0 * c' 0 j + u 1 * c' 1 j) ^ 2 = 0 := by
        have l0 := lin u u b' c' 0
        have l1 := lin u u b' c' 1
        have e1 : (∑ j, (u 0 * b' j 0 + u 1 * b' j 1) ^ 2) =
            u 0 * (∑ j, (u 0 * b' j 0 + u 1 * b' j 1) * b' j 0) + u 1 * ∑ j, (u 0 * b' j 0 + u 1 * b' j 1) * b' j 1 := by
          rw [Finset.mul_sum, Finset.mul_sum, ← Finset.sum_add_distrib]
          exact Finset.sum_congr rfl fun j _ => by ring
        have e2 : (∑ j, (u 0 * c' 0 j + u 1 * c' 1 j) ^ 2) =
            u 0 * (∑ j, (u 0 * c' 0 j + u 1 * c' 1 j) * c' 0 j) + u 1 * ∑ j, (u 0 * c' 0 j + u 1 * c' 1 j) * c' 1 j := by
          rw [Finset.mul_sum, Finset.mul_sum, ← Finset.sum_add_distrib]
          exact Finset.sum_congr rfl fun j _ => by ring
        rw [e1, e2]
        have h1' : u 0 * ((∑ j, b' j 0 * b' j 0) + ∑ j, c' 0 j * c' 0 j) +
            u 1 * ((∑ j, b' j 1 * b' j 0) + ∑ j, c' 1 j * c' 0 j) = 0 := h1
        have h2' : u 0 * ((∑ j, b' j 0 * b' j 1) + ∑ j, c' 0 j * c' 1 j) +
            u 1 * ((∑ j, b' j 1 * b' j 1) + ∑ j, c' 1 j * c' 1 j) = 0 := h2
        rw [l0] at h1'
        rw [l1] at h2'
        linear_combination u 0 * h1' + u 1 * h2'
      have p1 : 0 ≤ ∑ j, (u 0 * b' j 0 + u 1 * b' j 1) ^ 2 := Finset.sum_nonneg fun _ _ => sq_nonneg _
      have p2 : 0 ≤ ∑ j, (u 0 * c' 0 j + u 1 * c' 1 j) ^ 2 := Finset.sum_nonneg fun _ _ => sq_nonneg _
      have q1 : ∑ j, (u 0 * b' j 0 + u 1 * b' j 1) ^ 2 = 0 := by linarith
      have q2 : ∑ j, (u 0 * c' 0 j + u 1 * c' 1 j) ^ 2 = 0 := by linarith
      refine full _ _ (fun j => ?_) (fun j => ?_)
      · exact pow_eq_zero_iff two_ne_zero |>.1
          ((Finset.sum_eq_zero_iff_of_nonneg fun _ _ => sq_nonneg _).1 q1 j (Finset.mem_univ _))
      · exact pow_eq_zero_iff two_ne_zero |>.1
          ((Finset.sum_eq_zero_iff_of_nonneg fun _ _ => sq_nonneg _).1 q2 j (Finset.mem_univ _))
    have k1 := ker ![g 0 1, - g 0 0] (by simp [sym]; ring) (by simp; linear_combination -h0)
    have k2 := ker ![1, 0] (by have := k1.2; simp at this ⊢; exact this) (by have := k1.1; simp at this ⊢; exact this)
    exact one_ne_zero k2.1
  -- the two pictures give the same sums
  have sums : ∀ i l, z' i 0 * g 0 l + z' i 1 * g 1 l = z i 0 * h 0 l + z i 1 * h 1 l := by
    intro i l
    have l1 := lin (z' i) (z' i) b' c' l
    have l2 := lin (z i) (z i) b c l
    simp only [g, h]
    rw [l1, l2]
    congr 1
    · refine Finset.sum_congr rfl fun j _ => ?_
      have := hx i j
      unfold reconX at this
      rw [this]
    · refine Finset.sum_congr rfl fun j _ => ?_
      have := hy i j
      unfold reconY at this
      rw [this]
  let D := g 0 0 * g 1 1 - g 0 1 * g 0 1
  let t : Matrix (Fin 2) (Fin 2) K := fun k l =>
    if k = 0 then (h l 0 * g 1 1 - h l 1 * g 0 1) / D else (h l 1 * g 0 0 - h l 0 * g 0 1) / D
  have ht : ∀ i k, z' i k = t k 0 * z i 0 + t k 1 * z i 1 := by
    intro i k
    have s0 := sums i 0
    have s1 := sums i 1
    rw [sym] at s0
    have hD : D ≠ 0 := det
    match k with
    | 0 =>
      simp only [t, if_pos]
      field_simp
      simp only [D]
      linear_combination g 1 1 * s0 - g 0 1 * s1
    | 1 =>
      simp only [t, one_ne_zero, if_false]
      field_simp
      simp only [D]
      linear_combination g 0 0 * s1 - g 0 1 * s0
  refine ⟨t, ht, fun planar => ?_⟩
  have dt : t 0 0 * t 1 1 - t 0 1 * t 1 0 ≠ 0 := by
    intro h0
    have kill : ∀ u v : K, u * t 0 0 + v * t 1 0 = 0 → u * t 0 1 + v * t 1 1 = 0 → u = 0 ∧ v = 0 := by
      intro u v h1 h2
      refine planar u v fun i => ?_
      rw [ht i 0, ht i 1]
      linear_combination z i 0 * h1 + z i 1 * h2
    have k1 := kill (t 1 1) (-t 0 1) (by linear_combination h0) (by ring)
    have k2 := kill (t 1 0) (-t 0 0) (by ring) (by linear_combination -h0)
    have k3 := kill 1 0 (by have := k2.2; simp at this ⊢; exact this)
      (by have := k1.2; simp at this ⊢; exact this)
    exact one_ne_zero k3.1
  refine ⟨(t 0 0 * t 1 1 - t 0 1 * t 1 0)⁻¹ • of ![![t 1 1, - t 0 1], ![- t 1 0, t 0 0]], ?_⟩
  ext i j
  rw [mul_apply, Fin.sum_univ_two]
  fin_cases i <;> fin_cases j <;> simp <;> field_simp <;> ring

/-- **C212, never one picture.**  Whatever the data and the coefficients, if three instances are not on a line,
there are other coefficients with the same value of the objective whose picture is not the same up to rotation,
reflection, shift and scale.  In particular no picture is the only best one. -/
theorem C212_never_partial {x : Matrix (Fin p) (Fin n) K} (y : Matrix (Fin p) (Fin q) K)
    {v : Fin (2 * (n + q) + 2 * n) → K} {a : Matrix (Fin 2) (Fin n) K} {b : Matrix (Fin n) (Fin 2) K}
    {c : Matrix (Fin 2) (Fin q) K} {z : Matrix (Fin p) (Fin 2) K} (he : Encodes v a b c) (hz : Projects x a z)
    {i j k : Fin p}
    (corner : (z j 0 - z i 0) * (z k 1 - z i 1) ≠ (z j 1 - z i 1) * (z k 0 - z i 0)) :
    ∃ w a' b' c' z', Encodes w a' b' c' ∧ Projects x a' z' ∧
      errorFunction (xBar x y) w = errorFunction (xBar x y) v ∧ ¬ Similar z z' := by
  have two : (2 : K) ≠ 0 := two_ne_zero
  obtain ⟨h1, h2⟩ := C212_same_error_partial y b c hz (of ![![2, 0], ![0, 1]]) (of ![![2⁻¹, 0], ![0, 1]]) (by
    ext r s
    rw [mul_apply, Fin.sum_univ_two]
    fin_cases r <;> fin_cases s <;> simp)
  obtain ⟨w, hw, -⟩ := C135_space (fun k j => (of ![![2, 0], ![0, 1]] : Matrix (Fin 2) (Fin 2) K) k 0 * a 0 j +
      (of ![![2, 0], ![0, 1]] : Matrix (Fin 2) (Fin 2) K) k 1 * a 1 j)
    (fun j k => b j 0 * (of ![![2⁻¹, 0], ![0, 1]] : Matrix (Fin 2) (Fin 2) K) 0 k +
      b j 1 * (of ![![2⁻¹, 0], ![0, 1]] : Matrix (Fin 2) (Fin 2) K) 1 k)
    (fun k j => (of ![![2⁻¹, 0], ![0, 1]] : Matrix (Fin 2) (Fin 2) K) 0 k * c 0 j +
      (of ![![2⁻¹, 0], ![0, 1]] : Matrix (Fin 2) (Fin 2) K) 1 k * c 1 j)
  refine ⟨w, _, _, _, _, hw, h1, ?_, ?_⟩
  · rw [C135_objective x y hw h1, C135_objective x y he hz, h2]
  · rintro ⟨s, -, hs⟩
    have d : ∀ r t, (4 - s) * (z r 0 - z t 0) ^ 2 + (1 - s) * (z r 1 - z t 1) ^ 2 = 0 := by
      intro r t
      have := hs r t
      simp only [of_apply, cons_val_zero, cons_val_one, zero_mul, one_mul, add_zero, zero_add] at this
      linear_combination this
    have q1 := d j i
    have q2 := d k i
    have q3 := d j k
    have hD : (z j 0 - z i 0) * (z k 1 - z i 1) - (z j 1 - z i 1) * (z k 0 - z i 0) ≠ 0 := sub_ne_zero.2 corner
    have cross : (4 - s) * ((z j 0 - z i 0) * (z k 0 - z i 0)) + (1 - s) * ((z j 1 - z i 1) * (z k 1 - z i 1)) = 0 := by
      have : 2 * ((4 - s) * ((z j 0 - z i 0) * (z k 0 - z i 0)) + (1 - s) * ((z j 1 - z i 1) * (z k 1 - z i 1))) = 0 := by
        linear_combination q1 + q2 - q3
      exact (mul_eq_zero.1 this).resolve_left two
    have e1 : (4 - s) * ((z j 0 - z i 0) * (z k 1 - z i 1) - (z j 1 - z i 1) * (z k 0 - z i 0)) ^ 2 = 0 := by
      linear_combination (z k 1 - z i 1) ^ 2 * q1 - 2 * (z k 1 - z i 1) * (z j 1 - z i 1) * cross +
        (z j 1 - z i 1) ^ 2 * q2
    have e2 : (1 - s) * ((z j 0 - z i 0) * (z k 1 - z i 1) - (z j 1 - z i 1) * (z k 0 - z i 0)) ^ 2 = 0 := by
      linear_combination (z k 0 - z i 0) ^ 2 * q1 - 2 * (z k 0 - z i 0) * (z j 0 - z i 0) * cross +
        (z j 0 - z i 0) ^ 2 * q2
    have f1 : 4 - s = 0 := (mul_eq_zero.1 e1).resolve_right (pow_ne_zero 2 hD)
    have f2 : 1 - s = 0 := (mul_eq_zero.1 e2).resolve_right (pow_ne_zero 2 hD)
    linarith

/-! ### The full claim fails -/

/-- A vector whose reconstructions are the data is optimal. -/
theorem optimal_of_exact {x : Matrix (Fin p) (Fin n) K} {y : Matrix (Fin p) (Fin q) K}
    {v : Fin (2 * (n + q) + 2 * n) → K} (h : errorFunction (xBar x y) v = 0) (hp : 0 < p) (hn : 0 < n) :
    Optimal x y v := by
  intro a b c z he hz a' b' c' z' _
  have h0 := C135_objective x y he hz
  rw [h] at h0
  have hne : (p : K) * ((n + q : Nat) : K) ≠ 0 := by
    have h1 : (0 : K) < p := by exact_mod_cast hp
    have h2 : (0 : K) < ((n + q : Nat) : K) := by exact_mod_cast (by omega : 0 < n + q)
    positivity
  have h1 : residual x y z b c = 0 := by
    rcases div_eq_zero_iff.1 h0.symm with h | h
    · exact h
    · exact absurd h hne
  rw [h1]
  unfold residual
  exact add_nonneg (Finset.sum_nonneg fun _ _ => Finset.sum_nonneg fun _ _ => sq_nonneg _)
    (Finset.sum_nonneg fun _ _ => Finset.sum_nonneg fun _ _ => sq_nonneg _)

/-- The libraries of the example: one start, where the optimiser stays. -/
def stays (half : ℚ → ℚ) (v : Fin (len 2 1) → ℚ) : Lib ℚ 3 2 1 :=
  { eig := fun _ => (fun _ => 0, 0), argsort := fun _ => [], inv := fun _ => none, half := half
    bfgs := fun f _ => (v, f v), quality := fun _ => some 0, starts := fun _ => [v] }

/-- Three instances, two features, one algorithm whose performance is the sum of the features. -/
def cornerX : Matrix (Fin 3) (Fin 2) ℚ := of ![![1, 0], ![0, 1], ![0, 0]]

/-- See `cornerX`. -/
def cornerY : Matrix (Fin 3) (Fin 1) ℚ := of ![![1], ![1], ![0]]

/-- The features are the axes. -/
def upright : Fin (len 2 1) → ℚ := ![1, 0, 0, 1, 1, 0, 0, 1, 1, 1]

/-- The same after a shear of the plane. -/
def sheared : Fin (len 2 1) → ℚ := ![1, 1, 0, 1, 1, -1, 0, 1, 1, 0]

theorem upright_optimal : Optimal cornerX cornerY upright :=
  optimal_of_exact (by decide +kernel) (by norm_num) (by norm_num)

theorem sheared_optimal : Optimal cornerX cornerY sheared :=
  optimal_of_exact (by decide +kernel) (by norm_num) (by norm_num)

theorem stays_z {half : ℚ → ℚ} (hh : Half half) {v : Fin (len 2 1) → ℚ} (w : Fin (len 2 1) → Int)
    (hv : v = fun i => (w i : ℚ)) (hw : ∀ i, |w i| < 2 ^ 11) {out : Out ℚ 3 2 1}
    (h : pilot (stays half v) cornerX cornerY ["f", "g"] ⟨false, 1, none, none⟩ = .ok out) :
    out.z = cornerX * (aOf v).transpose := by
  obtain ⟨x0, idx, guess, alpha, hx0, _, hlt, hg, hal, _, _, _, heo, ha, hz, _⟩ := numerical_ok rfl h
  have hal' : alpha = v := by
    rw [hal]
    funext i
    show half (v i) = v i
    rw [hv]
    exact hh.integers _ (hw i)
  rw [hz, ha, hal']

/-- **C212** is false: of three instances, two features and one algorithm there are two pictures without any
error, one sheared against the other; an optimiser may return either. -/
theorem C212_refuted (half : ℚ → ℚ) (hh : Half half) : ¬ OnePicture half := by
  intro h
  have hok1 : ∃ out, pilot (stays half upright) cornerX cornerY ["f", "g"] ⟨false, 1, none, none⟩ = .ok out :=
    ⟨_, rfl⟩
  have hok2 : ∃ out, pilot (stays half sheared) cornerX cornerY ["f", "g"] ⟨false, 1, none, none⟩ = .ok out :=
    ⟨_, rfl⟩
  obtain ⟨out, h1⟩ := hok1
  obtain ⟨out', h2⟩ := hok2
  obtain ⟨s, hs, hd⟩ := h 3 2 1 (stays half upright) (stays half sheared) cornerX cornerY ["f", "g"]
    ⟨false, 1, none, none⟩ out out' rfl rfl (fun _ _ => upright_optimal) (fun _ _ => sheared_optimal) rfl h1 h2
  rw [stays_z hh ![1, 0, 0, 1, 1, 0, 0, 1, 1, 1] (by funext i; fin_cases i <;> simp [upright]) (by decide) h1,
    stays_z hh ![1, 1, 0, 1, 1, -1, 0, 1, 1, 0] (by funext i; fin_cases i <;> simp [sheared]) (by decide) h2] at hd
  have d02 := hd 0 2
  have d12 := hd 1 2
  have v1 : (cornerX * (aOf (q := 1) upright).transpose) = of ![![1, 0], ![0, 1], ![0, 0]] := by decide +kernel
  have v2 : (cornerX * (aOf (q := 1) sheared).transpose) = of ![![1, 0], ![1, 1], ![0, 0]] := by decide +kernel
  rw [v1, v2] at d02 d12
  change ((1 : ℚ) - 0) ^ 2 + (0 - 0) ^ 2 = s * ((1 - 0) ^ 2 + (0 - 0) ^ 2) at d02
  change ((1 : ℚ) - 0) ^ 2 + (1 - 0) ^ 2 = s * ((0 - 0) ^ 2 + (1 - 0) ^ 2) at d12
  norm_num at d02 d12
  linarith

-- A shear of the plane and its inverse: the hypotheses of `C212_same_error_partial` hold, and the picture
-- changes.
example : Projects cornerX (of ![![1, 0], ![0, 1]]) cornerX ∧
    (of ![![1, -1], ![0, 1]] : Matrix (Fin 2) (Fin 2) ℚ) * of ![![1, 1], ![0, 1]] = 1 ∧
    (of ![![1, 1], ![0, 1]] : Matrix (Fin 2) (Fin 2) ℚ) 0 0 * cornerX 1 0 +
      (of ![![1, 1], ![0, 1]] : Matrix (Fin 2) (Fin 2) ℚ) 0 1 * cornerX 1 1 ≠ cornerX 1 0 := by
  refine ⟨fun i k => ?_, by decide +kernel, by decide +kernel⟩
  fin_cases i <;> fin_cases k <;> simp [cornerX, Fin.sum_univ_two]

-- The corner meets the hypotheses of `C212_never_partial`.
example : Encodes (n := 2) (q := 1) upright (of ![![1, 0], ![0, 1]]) (of ![![1, 0], ![0, 1]]) (of ![![1], ![1]]) ∧
    (cornerX 1 0 - cornerX 0 0) * (cornerX 2 1 - cornerX 0 1) ≠
      (cornerX 1 1 - cornerX 0 1) * (cornerX 2 0 - cornerX 0 0) :=
  ⟨encodes_iff.2 ⟨by decide +kernel, by ext j k; fin_cases j <;> fin_cases k <;> decide +kernel,
    by ext k j; fin_cases j; fin_cases k <;> decide +kernel⟩, by decide +kernel⟩

-- The two pictures of the refutation meet the hypotheses of `C212_linear_partial`.
example : (∀ i j, reconX (of ![![1, 0], ![1, 1], ![0, 0]] : Matrix (Fin 3) (Fin 2) ℚ)
      (of ![![1, -1], ![0, 1]] : Matrix (Fin 2) (Fin 2) ℚ) i j =
      reconX cornerX (of ![![1, 0], ![0, 1]]) i j) ∧
    (∀ i j, reconY (of ![![1, 0], ![1, 1], ![0, 0]] : Matrix (Fin 3) (Fin 2) ℚ)
      (of ![![1], ![0]] : Matrix (Fin 2) (Fin 1) ℚ) i j = reconY cornerX (of ![![1], ![1]]) i j) ∧
    NoIdleDirection (of ![![1, -1], ![0, 1]] : Matrix (Fin 2) (Fin 2) ℚ) (of ![![1], ![0]] : Matrix (Fin 2) (Fin 1) ℚ) ∧
    Planar (of ![![1, 0], ![1, 1], ![0, 0]] : Matrix (Fin 3) (Fin 2) ℚ) := by
  refine ⟨by decide +kernel, by decide +kernel, fun u v h _ => ?_, fun u v h => ?_⟩
  · have h0 := h 0
    have h1 := h 1
    simp at h0 h1
    exact ⟨by linarith, h1⟩
  · have h0 := h 0
    have h1 := h 1
    simp at h0 h1
    exact ⟨h0, by linarith⟩

end Verif.Pilot
