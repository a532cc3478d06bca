import Verif.Pilot.GapLemmas
/-!
# C212: the best pictures of the instance space, when they are unique
-/
set_option autoImplicit false
set_option linter.unusedSectionVars false

namespace Verif.Pilot

open Matrix

variable {K : Type} [Field K] [LinearOrder K] [IsStrictOrderedRing K] {p n q : Nat}

/-- **C212, the best pictures.**  Take the data with the performances replaced by their linear fit on the
features.  If the second largest eigenvalue of its products is positive and above all the smaller ones, the best
pictures of the data are exactly the linear changes (that can be undone) of any one of them. -/
theorem C212_gap_partial {x : Matrix (Fin p) (Fin n) K} {y : Matrix (Fin p) (Fin q) K} {m : Matrix (Fin n) (Fin q) K}
    (hm : Regression x y m) {d : Fin (n + q) → K} {v : Matrix (Fin (n + q)) (Fin (n + q)) K}
    (he : Eigen (gram fun i r => column x (fun i j => ∑ s, x i s * m s j) r i) d v) (hv : Orthonormal v)
    {e₀ e₁ : Fin (n + q)} (hne : e₀ ≠ e₁) (h01 : d e₁ ≤ d e₀) (hgap : ∀ r, r ≠ e₀ → r ≠ e₁ → d r < d e₁)
    (hpos : 0 < d e₁) {z : Matrix (Fin p) (Fin 2) K} (hb : Best x y z) (z' : Matrix (Fin p) (Fin 2) K) :
    Best x y z' ↔ LinearChange z z' := by
  have hVV : v.transpose * v = 1 := by
    ext k l
    rw [mul_apply, one_apply]
    exact hv k l
  have hxm : (fun i j => ∑ s, x i s * m s j : Matrix (Fin p) (Fin q) K) = x * m := by
    ext i j
    rw [mul_apply]
  rw [hxm, gram_eq] at he
  constructor
  · intro hb'
    obtain ⟨t, s, hst, h1⟩ := best_points hm hVV he (e := ![e₀, e₁]) hne h01 hgap hpos hb
    obtain ⟨t', s', hst', h2⟩ := best_points hm hVV he (e := ![e₀, e₁]) hne h01 hgap hpos hb'
    have hts' : t' * s' = 1 := mul_eq_one_comm.1 hst'
    have hz' : z' = z * (t * s') := by
      rw [← Matrix.mul_assoc, ← h1, h2, Matrix.mul_assoc, hts', Matrix.mul_one]
    refine ⟨(t * s').transpose, (t' * s).transpose, ?_, fun i k => ?_⟩
    · rw [← transpose_mul, Matrix.mul_assoc, ← Matrix.mul_assoc s', hst', Matrix.one_mul]
      rw [mul_eq_one_comm.1 hst, transpose_one]
    · rw [hz', mul_apply, Fin.sum_univ_two, transpose_apply, transpose_apply]
      ring
  · rintro ⟨t, s, hst, hz'⟩
    obtain ⟨w, a, b, c, ho, hw, hz⟩ := hb
    obtain ⟨h1, h2⟩ := C212_same_error_partial y b c hz t s hst
    obtain ⟨w', hw', -⟩ := C135_space (fun k j => t k 0 * a 0 j + t k 1 * a 1 j)
      (fun j k => b j 0 * s 0 k + b j 1 * s 1 k) (fun k j => s 0 k * c 0 j + s 1 k * c 1 j)
    have ez : (fun i k => t k 0 * z i 0 + t k 1 * z i 1) = z' := by
      funext i k
      exact (hz' i k).symm
    rw [ez] at h1 h2
    refine ⟨w', _, _, _, ?_, hw', h1⟩
    intro a1 b1 c1 z1 he1 hz1 a2 b2 c2 z2 hp2
    obtain ⟨ea, eb, ec⟩ := encodes_iff.1 he1
    obtain ⟨fa, fb, fc⟩ := encodes_iff.1 hw'
    rw [← fa] at ea
    rw [← fb] at eb
    rw [← fc] at ec
    subst ea eb ec
    have e1 : z1 = z' := by
      funext i k
      rw [hz1 i k, h1 i k]
    rw [e1, h2]
    exact ho a b c z hw hz a2 b2 c2 z2 hp2

/-- **C212, two runs.**  Under the same conditions two runs of the numerical solution, with optimisers that always
reach the smallest error (and no rounding of the coefficients), draw pictures that differ by a linear change of
the plane that can be undone. -/
theorem C212_gap_runs_partial {x : Matrix (Fin p) (Fin n) K} {y : Matrix (Fin p) (Fin q) K}
    {m : Matrix (Fin n) (Fin q) K}
    (hm : Regression x y m) {d : Fin (n + q) → K} {v : Matrix (Fin (n + q)) (Fin (n + q)) K}
    (he : Eigen (gram fun i r => column x (fun i j => ∑ s, x i s * m s j) r i) d v) (hv : Orthonormal v)
    {e₀ e₁ : Fin (n + q)} (hne : e₀ ≠ e₁) (h01 : d e₁ ≤ d e₀) (hgap : ∀ r, r ≠ e₀ → r ≠ e₁ → d r < d e₁)
    (hpos : 0 < d e₁) {lib lib' : Lib K p n q} {labels : List String} {opts : Options K n q} {out out' : Out K p n q}
    (hh : ∀ u, lib.half u = u) (hh' : ∀ u, lib'.half u = u) (ho : ∀ f guess, Optimal x y (lib.bfgs f guess).1)
    (ho' : ∀ f guess, Optimal x y (lib'.bfgs f guess).1) (ha : opts.analytic = false)
    (h : pilot lib x y labels opts = .ok out) (h' : pilot lib' x y labels opts = .ok out') :
    LinearChange out.z out'.z := by
  exact (C212_gap_partial hm he hv hne h01 hgap hpos (best_of_numerical hh ho ha h) out'.z).1
    (best_of_numerical hh' ho' ha h')

/-- **C212, the two modes.**  When the features determine the performances linearly, and the second largest
eigenvalue is positive and above all the smaller ones, the analytic solution and a numerical solution that reaches
the smallest error draw pictures that differ by a linear change of the plane that can be undone. -/
theorem C212_modes_partial {x : Matrix (Fin p) (Fin n) K} {y : Matrix (Fin p) (Fin q) K}
    (m : Fin n → Fin q → K) (hy : ∀ i j, y i j = ∑ t, x i t * m t j)
    {d : Fin (n + q) → K} {v : Matrix (Fin (n + q)) (Fin (n + q)) K}
    (he : Eigen (gram fun i r => column x y r i) d v) (hv : Orthonormal v)
    {e₀ e₁ : Fin (n + q)} (hne : e₀ ≠ e₁) (h01 : d e₁ ≤ d e₀) (hgap : ∀ r, r ≠ e₀ → r ≠ e₁ → d r < d e₁)
    (hpos : 0 < d e₁) {lib lib' : Lib K p n q} {labels : List String} {opts opts' : Options K n q}
    {out out' : Out K p n q}
    (hd : lib.eig (gram fun i r => column x y r i) = (d, v))
    (hs : Ascending (fun i => |d i|) (lib.argsort fun i => |d i|))
    (hinv : ∀ m r, lib.inv m = some r → m * r = 1) (ha : opts.analytic = true)
    (h : pilot lib x y labels opts = .ok out)
    (hh' : ∀ u, lib'.half u = u) (ho' : ∀ f guess, Optimal x y (lib'.bfgs f guess).1)
    (ha' : opts'.analytic = false) (h' : pilot lib' x y labels opts' = .ok out') :
    LinearChange out.z out'.z := by
  have hm : Regression x y (of m) := by
    intro t j
    refine Finset.sum_eq_zero fun i _ => ?_
    rw [hy i j]
    simp
  have hfit : (fun i j => ∑ s, x i s * (of m : Matrix (Fin n) (Fin q) K) s j : Matrix (Fin p) (Fin q) K) = y := by
    funext i j
    exact (hy i j).symm
  obtain ⟨hz, -, hc, herr⟩ := C76_analytic ha h
  have hb : Best x y out.z := best_of_le hz (b := out.b) (c := fun k j => out.c k (j.cast hc.symm)) (fun z' b' c' => by
    rw [← herr]
    exact C108_linear_partial hd he hv hs hinv ha h m hy z' b' c')
  exact (C212_gap_partial hm (hfit.symm ▸ he) hv hne h01 hgap hpos hb out'.z).1 (best_of_numerical hh' ho' ha' h')

/-! ### An example -/

/-- Three instances, two features. -/
def gapX : Matrix (Fin 3) (Fin 2) ℚ := of ![![3, 0], ![0, 1], ![0, 0]]

/-- One algorithm: its performance is 4/3 of the first feature, except on the last instance. -/
def gapY : Matrix (Fin 3) (Fin 1) ℚ := of ![![4], ![0], ![7]]

/-- The regression of `gapY` on `gapX`. -/
def gapM : Matrix (Fin 2) (Fin 1) ℚ := of ![![4 / 3], ![0]]

/-- The axes are the features. -/
def gapV : Fin (len 2 1) → ℚ := ![1, 0, 0, 1, 1, 0, 0, 1, 4 / 3, 0]

/-- The same after a shear of the plane. -/
def gapV' : Fin (len 2 1) → ℚ := ![1, 1, 0, 1, 1, -1, 0, 1, 4 / 3, -4 / 3]

/-- Eigenvectors of the products of the features and the fitted performances: the eigenvalues are 25, 1, 0. -/
def gapEig : Matrix (Fin (2 + 1)) (Fin (2 + 1)) ℚ := of ![![3 / 5, 0, -4 / 5], ![0, 1, 0], ![4 / 5, 0, 3 / 5]]

theorem gapY_regression : Regression gapX gapY gapM := by
  unfold Regression
  decide +kernel

theorem gap_best {w : Fin (len 2 1) → ℚ} (h : residual gapX gapY (gapX * (aOf w).transpose)
    (fun j => bOf w (Fin.castAdd 1 j)) (fun k j => bOf w (Fin.natAdd 2 j) k) = 49) :
    Optimal gapX gapY w := by
  intro a b c z he hz a' b' c' z' hz'
  obtain ⟨ha, hb, hc⟩ := encodes_iff.1 he
  have ez : z = gapX * (aOf w).transpose := by
    ext i k
    rw [hz i k, mul_apply, ha]
    rfl
  rw [ez, hb, hc, h, residual_fitted gapY_regression hz']
  have h1 : sq (gapY - gapX * gapM) = 49 := by decide +kernel
  rw [h1]
  have : 0 ≤ residual gapX (gapX * gapM) z' b' c' := by
    unfold residual
    exact add_nonneg (Finset.sum_nonneg fun _ _ => Finset.sum_nonneg fun _ _ => sq_nonneg _)
      (Finset.sum_nonneg fun _ _ => Finset.sum_nonneg fun _ _ => sq_nonneg _)
  linarith

-- The hypotheses of `C212_gap_partial` and `C212_gap_runs_partial`: the two vectors are optimal though the
-- error is 49, and their pictures differ by the shear.
example : Regression gapX gapY gapM ∧
    Eigen (gram fun i r => column gapX (fun i j => ∑ s, gapX i s * gapM s j) r i) ![25, 1, 0] gapEig ∧
    Orthonormal gapEig ∧ (∀ r : Fin (2 + 1), r ≠ 0 → r ≠ 1 → (![25, 1, 0] : Fin (2 + 1) → ℚ) r < 1) ∧
    Optimal gapX gapY gapV ∧ Optimal gapX gapY gapV' ∧ aOf (q := 1) gapV ≠ aOf gapV' ∧
    (∃ out out', pilot (stays id gapV) gapX gapY ["f", "g"]
        ⟨false, 1, none, none⟩ = .ok out ∧
      pilot (stays id gapV') gapX gapY ["f", "g"] ⟨false, 1, none, none⟩ = .ok out') :=
  ⟨gapY_regression, ⟨by decide +kernel, by decide +kernel⟩, by unfold Orthonormal; decide +kernel, by decide +kernel,
    gap_best (by decide +kernel), gap_best (by decide +kernel), by decide +kernel, _, _, rfl, rfl⟩

/-- The part of `gapY` that is linear in the features. -/
def gapY' : Matrix (Fin 3) (Fin 1) ℚ := of ![![4], ![0], ![0]]

/-- Libraries for the analytic solution of `gapX` and `gapY'`. -/
def gapLib : Lib ℚ 3 2 1 :=
  { stays id gapV with
    eig := fun _ => (![25, 1, 0], gapEig), argsort := fun _ => [2, 1, 0]
    inv := fun m => if m = of ![![9, 0], ![0, 1]] then some (of ![![1 / 9, 0], ![0, 1]]) else none }

-- The hypotheses of `C212_modes_partial`; the analytic picture is the numerical one stretched and turned.
example : (∀ i j, gapY' i j = ∑ t, gapX i t * (gapM t j : ℚ)) ∧
    Eigen (gram fun i r => column gapX gapY' r i) ![25, 1, 0] gapEig ∧
    Ascending (fun i => |(![25, 1, 0] : Fin (2 + 1) → ℚ) i|) (gapLib.argsort fun i => |(![25, 1, 0] : Fin (2 + 1) → ℚ) i|) ∧
    (∀ m r, gapLib.inv m = some r → m * r = 1) ∧
    (pilot gapLib gapX gapY' ["f", "g"] ⟨true, 1, none, none⟩).toOption.map (fun o => o.z) =
      some (of ![![-5, 0], ![0, -1], ![0, 0]]) ∧
    Optimal gapX gapY' gapV ∧
    (pilot (stays id gapV) gapX gapY' ["f", "g"] ⟨false, 1, none, none⟩).toOption.map (fun o => o.z) =
      some (of ![![3, 0], ![0, 1], ![0, 0]]) := by
  refine ⟨by intro i j; fin_cases i <;> fin_cases j <;> decide +kernel, ⟨by decide +kernel, by decide +kernel⟩,
    ⟨by decide +kernel, by decide +kernel⟩, ?_,
    by decide +kernel, optimal_of_exact (by decide +kernel) (by norm_num) (by norm_num), by decide +kernel⟩
  intro m r h
  simp only [gapLib] at h
  split at h
  · rename_i hm
    injection h with h
    subst h hm
    decide +kernel
  · cases h

end Verif.Pilot
