import Verif.Pilot.Spec
import Mathlib.LinearAlgebra.Matrix.NonsingularInverse
import Mathlib.LinearAlgebra.Matrix.ToLin
import Mathlib.LinearAlgebra.Matrix.Trace
import Mathlib.Tactic.Ring
import Mathlib.Algebra.BigOperators.Field
import Mathlib.LinearAlgebra.Matrix.DotProduct
import Mathlib.Tactic.FieldSimp
/-!
# Lemmas about the model of PILOT
-/
set_option autoImplicit false
set_option linter.unusedSectionVars false

namespace Verif.Pilot

open Matrix

variable {K : Type} [Field K] [LinearOrder K] [IsStrictOrderedRing K] {p n q : Nat}

/-! ### Sums of squares -/

/-- Sum of the squares of the entries. -/
def sq {r s : Nat} (m : Matrix (Fin r) (Fin s) K) : K := ∑ i, ∑ j, m i j ^ 2

theorem sq_nonneg' {r s : Nat} (m : Matrix (Fin r) (Fin s) K) : 0 ≤ sq m :=
  Finset.sum_nonneg fun _ _ => Finset.sum_nonneg fun _ _ => sq_nonneg _

theorem sq_eq_zero {r s : Nat} {m : Matrix (Fin r) (Fin s) K} (h : sq m = 0) : m = 0 := by
  ext i j
  have h1 := (Finset.sum_eq_zero_iff_of_nonneg
    (fun i _ => Finset.sum_nonneg fun j _ => sq_nonneg (m i j))).1 h i (Finset.mem_univ _)
  have h2 := (Finset.sum_eq_zero_iff_of_nonneg (fun j _ => sq_nonneg (m i j))).1 h1 j
    (Finset.mem_univ _)
  exact pow_eq_zero_iff (two_ne_zero) |>.1 h2

theorem sumSquares_eq {r s : Nat} (u v : Matrix (Fin r) (Fin s) K) :
    sumSquares u v = sq (u - v) := rfl

theorem sq_transpose {r s : Nat} (m : Matrix (Fin r) (Fin s) K) : sq m.transpose = sq m := by
  unfold sq
  rw [Finset.sum_comm]
  rfl

theorem sq_trace {r s : Nat} (m : Matrix (Fin r) (Fin s) K) : sq m = trace (m.transpose * m) := by
  unfold sq trace
  rw [Finset.sum_comm]
  refine Finset.sum_congr rfl fun j _ => ?_
  rw [diag_apply, mul_apply]
  refine Finset.sum_congr rfl fun i _ => ?_
  rw [transpose_apply, pow_two]

/-- Pythagoras. -/
theorem sq_add {r s t : Nat} (x : Matrix (Fin r) (Fin t) K) (e : Matrix (Fin r) (Fin s) K)
    (d : Matrix (Fin t) (Fin s) K) (h : x.transpose * e = 0) :
    sq (e + x * d) = sq e + sq (x * d) := by
  have h' : e.transpose * x = 0 := by
    have := congrArg transpose h
    rwa [transpose_mul, transpose_transpose, transpose_zero] at this
  rw [sq_trace, sq_trace, sq_trace, transpose_add, Matrix.add_mul, Matrix.mul_add, Matrix.mul_add,
    ← Matrix.mul_assoc e.transpose, h', transpose_mul, Matrix.mul_assoc d.transpose x.transpose e, h]
  simp

theorem sq_isometry {r s t : Nat} (w : Matrix (Fin r) (Fin t) K) (g : Matrix (Fin t) (Fin s) K)
    (h : w.transpose * w = 1) : sq (w * g) = sq g := by
  rw [sq_trace, sq_trace, transpose_mul, Matrix.mul_assoc, ← Matrix.mul_assoc w.transpose, h,
    Matrix.one_mul]

/-! ### Inverse of the Gram matrix -/

theorem inverse_symm {x : Matrix (Fin p) (Fin n) K} {r : Matrix (Fin n) (Fin n) K}
    (h : x.transpose * x * r = 1) : r.transpose = r := by
  have h1 : r.transpose * (x.transpose * x) = 1 := by
    have := congrArg transpose h
    rwa [transpose_mul, transpose_mul, transpose_transpose, transpose_one] at this
  calc r.transpose = r.transpose * (x.transpose * x * r) := by rw [h, Matrix.mul_one]
    _ = r.transpose * (x.transpose * x) * r := by rw [← Matrix.mul_assoc]
    _ = r := by rw [h1, Matrix.one_mul]

theorem independent_inverse {x : Matrix (Fin p) (Fin n) K} (h : Independent x) :
    ∃ r, x.transpose * x * r = 1 := by
  have hinj : Function.Injective (x.transpose * x).mulVec := by
    have : Function.Injective (x.transpose * x).mulVecLin := by
      rw [← LinearMap.ker_eq_bot, LinearMap.ker_eq_bot']
      intro w hw
      have hw' : (x.transpose * x).mulVec w = 0 := hw
      have hz : x.mulVec w = 0 := by
        have : (x.mulVec w) ⬝ᵥ (x.mulVec w) = 0 := by
          have h2 : w ⬝ᵥ ((x.transpose * x).mulVec w) = 0 := by rw [hw']; simp
          rw [← Matrix.mulVec_mulVec, Matrix.dotProduct_mulVec, Matrix.vecMul_transpose] at h2
          exact h2
        exact dotProduct_self_eq_zero.1 this
      funext j
      refine h w (fun i => ?_) j
      exact congrFun hz i
    exact this
  have hu := Matrix.mulVec_injective_iff_isUnit.1 hinj
  obtain ⟨u, hu⟩ := hu
  exact ⟨(u⁻¹ : (Matrix (Fin n) (Fin n) K)ˣ), by rw [← hu]; exact u.mul_inv⟩

/-- The normal equations. -/
theorem normal_equations {x : Matrix (Fin p) (Fin n) K} {r : Matrix (Fin n) (Fin n) K}
    (h : x.transpose * x * r = 1) (t : Matrix (Fin 2) (Fin p) K) :
    x.transpose * (t.transpose - x * (t * (x * r)).transpose) = 0 := by
  rw [Matrix.mul_sub, transpose_mul, transpose_mul, inverse_symm h]
  have : x.transpose * (x * (r * x.transpose * t.transpose)) =
      (x.transpose * x * r) * (x.transpose * t.transpose) := by
    simp only [Matrix.mul_assoc]
  rw [this, h, Matrix.one_mul, sub_self]

/-- Least squares. -/
theorem least_squares {x : Matrix (Fin p) (Fin n) K} {r : Matrix (Fin n) (Fin n) K}
    (h : x.transpose * x * r = 1) (t : Matrix (Fin 2) (Fin p) K) (a' : Matrix (Fin 2) (Fin n) K) :
    sq (t - t * (x * r) * x.transpose) ≤ sq (t - a' * x.transpose) := by
  have hne := normal_equations h t
  have e : (t - a' * x.transpose).transpose =
      (t.transpose - x * (t * (x * r)).transpose) + x * ((t * (x * r)).transpose - a'.transpose) := by
    rw [transpose_sub, transpose_mul, transpose_transpose, Matrix.mul_sub]
    abel
  rw [← sq_transpose (t - a' * x.transpose), e, sq_add _ _ _ hne,
    ← sq_transpose (t - t * (x * r) * x.transpose), transpose_sub, transpose_mul _ x.transpose,
    transpose_transpose]
  have := sq_nonneg' (x * ((t * (x * r)).transpose - a'.transpose))
  linarith

/-! ### Outputs -/

theorem residual_eq (x : Matrix (Fin p) (Fin n) K) (y : Matrix (Fin p) (Fin q) K)
    (z : Matrix (Fin p) (Fin 2) K) (w : Matrix (Fin (n + q)) (Fin 2) K) :
    sumSquares (xBar x y) (z * w.transpose) =
      residual x y z (fun i => w (Fin.castAdd q i)) (fun k j => w (Fin.natAdd n j) k) := by
  unfold sumSquares residual
  rw [← Finset.sum_add_distrib]
  refine Finset.sum_congr rfl fun i _ => ?_
  rw [Fin.sum_univ_add]
  congr 1
  · refine Finset.sum_congr rfl fun j _ => ?_
    unfold xBar reconX
    rw [Fin.append_left, mul_apply, Fin.sum_univ_two]
    rfl
  · refine Finset.sum_congr rfl fun j _ => ?_
    unfold xBar reconY
    rw [Fin.append_right, mul_apply, Fin.sum_univ_two]
    rfl

theorem append_mul (w : Matrix (Fin (n + q)) (Fin 2) K) (b : Matrix (Fin n) (Fin 2) K)
    (c : Matrix (Fin 2) (Fin q) K) (z : Matrix (Fin 2) (Fin p) K)
    (hb : ∀ i k, b i k = w (Fin.castAdd q i) k) (hc : ∀ k j, c k j = w (Fin.natAdd n j) k) :
    vstack (b * z) (c.transpose * z) = w * z := by
  ext i k
  unfold vstack
  rw [of_apply]
  refine Fin.addCases (fun j => ?_) (fun j => ?_) i
  · rw [Fin.addCases_left, mul_apply, mul_apply]
    exact Finset.sum_congr rfl fun t _ => by rw [hb]
  · rw [Fin.addCases_right, mul_apply, mul_apply]
    exact Finset.sum_congr rfl fun t _ => by rw [transpose_apply, hc]

/-- Everything about a successful analytic solution. -/
theorem analyticSolve_ok {lib : Lib K p n q} {x : Matrix (Fin p) (Fin n) K}
    {xbar : Matrix (Fin p) (Fin (n + q)) K} {s : Analytic K p n q}
    (h : analyticSolve lib x xbar = .ok s) :
    ∃ ij w r, leading lib (lib.eig (xbar.transpose * xbar)).1 = some ij ∧
      w = leadingVectors (lib.eig (xbar.transpose * xbar)).2 ij ∧
      lib.inv (x.transpose * x) = some r ∧
      s.a = w.transpose * xbar.transpose * (x * r) ∧ s.z = x * s.a.transpose ∧
      s.b = (fun i => w (Fin.castAdd q i)) ∧ s.c = (fun k j => w (Fin.natAdd n j) k) ∧
      s.error = sumSquares xbar (s.z * w.transpose) ∧
      s.r2 = List.ofFn fun j =>
        (sqCorr (fun i => xbar i j) (fun i => (s.z * w.transpose) i j)).map lib.half := by
  unfold analyticSolve at h
  simp only [transpose_transpose] at h
  split at h
  · cases h
  rename_i ij hij
  split at h
  · cases h
  rename_i r hr
  injection h with h
  refine ⟨ij, _, r, hij, rfl, hr, ?_⟩
  generalize leadingVectors (lib.eig (xbar.transpose * xbar)).2 ij = w at h
  rw [append_mul w _ _ _ (fun _ _ => rfl) (fun _ _ => rfl)] at h
  subst h
  refine ⟨rfl, ?_, rfl, rfl, ?_, ?_⟩
  · simp only
    rw [transpose_mul, transpose_transpose]
  · simp only
    rw [sumSquares_eq, sumSquares_eq, ← sq_transpose, transpose_sub, transpose_transpose,
      transpose_mul]
  · simp only
    congr 1
    funext j
    congr 2
    funext i
    have := congrFun (congrFun (transpose_mul w
      (w.transpose * xbar.transpose * (x * r) * x.transpose)) i) j
    rw [← this]
    rfl

/-- A variable correlates with itself. -/
theorem sqCorr_self {r : Nat} (u : Fin r → K) : sqCorr u u = none ∨ sqCorr u u = some 1 := by
  unfold sqCorr
  simp only
  by_cases h : ∑ i, (u i - mean u) ^ 2 = 0
  · left
    rw [if_pos (.inl h)]
  · right
    rw [if_neg (by simp [h])]
    have e : ∑ i, (u i - mean u) * (u i - mean u) = ∑ i, (u i - mean u) ^ 2 :=
      Finset.sum_congr rfl fun i _ => (pow_two _).symm
    rw [e, pow_two, div_self (mul_ne_zero h h)]

/-! ### The largest value -/

theorem argmaxFrom_spec : ∀ (l : List (Option K)) (i : Nat) (a : K) (k : Nat),
    (∀ o ∈ l, o ≠ none) → ∃ v, ((argmaxFrom i (some a) k l = k ∧ v = a) ∨
      ∃ j, argmaxFrom i (some a) k l = i + j ∧ l[j]? = some (some v)) ∧ a ≤ v ∧
      ∀ b, some b ∈ l → b ≤ v
  | [], i, a, k, _ => ⟨a, .inl ⟨rfl, rfl⟩, le_refl _, by simp⟩
  | none :: l, i, a, k, h => absurd rfl (h none (by simp))
  | some b :: l, i, a, k, h => by
      unfold argmaxFrom
      by_cases hab : a < b
      · rw [if_pos hab]
        obtain ⟨v, hv, hbv, hl⟩ := argmaxFrom_spec l (i + 1) b i fun o ho => h o (by simp [ho])
        refine ⟨v, .inr ?_, le_trans (le_of_lt hab) hbv, ?_⟩
        · rcases hv with ⟨h1, h2⟩ | ⟨j, h1, h2⟩
          · exact ⟨0, by rw [h1]; rfl, by rw [h2]; rfl⟩
          · exact ⟨j + 1, by rw [h1]; omega, by simpa using h2⟩
        · intro c hc
          rcases List.mem_cons.1 hc with hc | hc
          · injection hc with hc
            rw [hc]
            exact hbv
          · exact hl c hc
      · rw [if_neg hab]
        obtain ⟨v, hv, hav, hl⟩ := argmaxFrom_spec l (i + 1) a k fun o ho => h o (by simp [ho])
        refine ⟨v, ?_, hav, ?_⟩
        · rcases hv with ⟨h1, h2⟩ | ⟨j, h1, h2⟩
          · exact .inl ⟨h1, h2⟩
          · exact .inr ⟨j + 1, by rw [h1]; omega, by simpa using h2⟩
        · intro c hc
          rcases List.mem_cons.1 hc with hc | hc
          · injection hc with hc
            rw [hc]
            exact le_trans (not_lt.1 hab) hav
          · exact hl c hc

theorem argmax_spec {l : List (Option K)} {i : Nat} (h : argmax l = some i)
    (hn : ∀ o ∈ l, o ≠ none) : ∃ v, l[i]? = some (some v) ∧ ∀ b, some b ∈ l → b ≤ v := by
  rcases l with _ | ⟨_ | a, l⟩
  · cases h
  · exact absurd rfl (hn none (by simp))
  · unfold argmax at h
    injection h with h
    obtain ⟨v, hv, hav, hl⟩ := argmaxFrom_spec l 1 a 0 fun o ho => hn o (by simp [ho])
    rw [h] at hv
    refine ⟨v, ?_, ?_⟩
    · rcases hv with ⟨h1, h2⟩ | ⟨j, h1, h2⟩
      · rw [h1, h2]
        rfl
      · rw [h1, Nat.add_comm]
        simpa using h2
    · intro b hb
      rcases List.mem_cons.1 hb with hb | hb
      · injection hb with hb
        rw [hb]
        exact hav
      · exact hl b hb

theorem argmaxFrom_lt : ∀ (l : List (Option K)) (i : Nat) (a : Option K) (k : Nat), k < i →
    argmaxFrom i a k l < i + l.length
  | [], i, a, k, h => by simpa [argmaxFrom] using h
  | o :: l, i, none, k, h => by
      have := argmaxFrom_lt l (i + 1) none k (by omega)
      unfold argmaxFrom
      rw [List.length_cons]
      omega
  | none :: l, i, some a, k, h => by
      have := argmaxFrom_lt l (i + 1) (none : Option K) i (by omega)
      unfold argmaxFrom
      rw [List.length_cons]
      omega
  | some b :: l, i, some a, k, h => by
      have h1 := argmaxFrom_lt l (i + 1) (some b) i (by omega)
      have h2 := argmaxFrom_lt l (i + 1) (some a) k (by omega)
      unfold argmaxFrom
      rw [List.length_cons]
      split <;> omega

theorem argmax_lt {l : List (Option K)} {i : Nat} (h : argmax l = some i) : i < l.length := by
  rcases l with _ | ⟨a, l⟩
  · cases h
  · unfold argmax at h
    injection h with h
    have := argmaxFrom_lt l 1 a 0 (by omega)
    rw [List.length_cons]
    omega

theorem argmax_isSome {l : List (Option K)} (h : l ≠ []) : ∃ i, argmax l = some i := by
  rcases l with _ | ⟨a, l⟩
  · exact absurd rfl h
  · exact ⟨_, rfl⟩

/-- The first missing value wins. -/
theorem argmaxFrom_none : ∀ (l : List (Option K)) (i : Nat) (k : Nat), argmaxFrom i none k l = k
  | [], _, _ => rfl
  | _ :: l, i, k => argmaxFrom_none l (i + 1) k

/-- Everything about a successful numerical solution. -/
theorem numerical_ok {lib : Lib K p n q} {x : Matrix (Fin p) (Fin n) K}
    {y : Matrix (Fin p) (Fin q) K} {labels : List String} {opts : Options K n q} {out : Out K p n q}
    (hm : opts.analytic = false) (h : pilot lib x y labels opts = .ok out) :
    ∃ (x0 : List (Fin (len n q) → K)) (idx : Nat) (guess alpha : Fin (len n q) → K),
      x0 = opts.x0.getD (lib.starts opts.nTries) ∧ opts.nTries ≤ x0.length ∧ idx < opts.nTries ∧
      x0[idx]? = some guess ∧ alpha = (fun i => lib.half ((lib.bfgs (errorFunction (xBar x y)) guess).1 i)) ∧
      out.x0 = some x0 ∧
      out.perf = some ((x0.take opts.nTries).map fun g =>
        lib.quality (x * (aOf (lib.bfgs (errorFunction (xBar x y)) g).1).transpose)) ∧
      argmax ((x0.take opts.nTries).map fun g =>
        lib.quality (x * (aOf (lib.bfgs (errorFunction (xBar x y)) g).1).transpose)) = some idx ∧
      out.eoptim = some ((x0.take opts.nTries).map fun g =>
        (lib.bfgs (errorFunction (xBar x y)) g).2) ∧
      out.a = aOf alpha ∧ out.z = x * out.a.transpose ∧
      out.b = (fun i => bOf alpha (Fin.castAdd q i)) ∧
      (∃ hc : out.cCols = q - 1, ∀ k (j : Fin out.cCols),
        out.c k j = bOf alpha ⟨n + 1 + j, by omega⟩ k) ∧
      out.error = sumSquares (xBar x y) (out.z * (bOf alpha).transpose) ∧
      out.r2 = List.ofFn (fun i => sqCorr (xBar x y i) (xBar x y i)) ++
        List.ofFn (fun i => sqCorr ((out.z * (bOf alpha).transpose) i)
          ((out.z * (bOf alpha).transpose) i)) ∧
      summary out.a labels = .ok out.summary := by
  unfold pilot at h
  simp only [hm, Bool.false_eq_true, if_false] at h
  split at h
  · cases h
  split at h
  · cases h
  rename_i s hs
  split at h
  · cases h
  rename_i alpha halpha
  split at h
  · cases h
  rename_i t ht
  unfold numericalSolve at hs
  split at hs
  · cases hs
  split at hs
  · cases hs
  rename_i hlen
  simp only at hs
  split at hs
  · cases hs
  rename_i idx hidx
  injection hs with hs
  subst hs
  simp only [List.map_map] at hidx halpha h
  have hlt := argmax_lt hidx
  simp only [List.length_map, List.length_take] at hlt
  have hlt' : idx < opts.nTries := by omega
  rw [List.getElem?_map, List.getElem?_take, if_pos hlt'] at halpha
  rcases hg : (opts.x0.getD (lib.starts opts.nTries))[idx]? with _ | guess
  · rw [hg] at halpha
    cases halpha
  rw [hg] at halpha
  injection halpha with halpha
  injection h with h
  subst h
  refine ⟨_, idx, guess, alpha, rfl, by omega, hlt', hg, halpha.symm, rfl, rfl, hidx, rfl, rfl, rfl, rfl,
    ⟨rfl, fun k j => rfl⟩, rfl, rfl, ht⟩

theorem errorFunction_eq (x : Matrix (Fin p) (Fin n) K) (y : Matrix (Fin p) (Fin q) K)
    (alpha : Fin (len n q) → K) (hp : 0 < p) (hm : 0 < n + q) :
    errorFunction (xBar x y) alpha * ((p * (n + q) : Nat) : K) =
      sumSquares (xBar x y) (x * (aOf alpha).transpose * (bOf alpha).transpose) := by
  have hx : (fun i j => xBar x y i (Fin.castAdd q j) : Matrix (Fin p) (Fin n) K) = x := by
    funext i j
    unfold xBar
    rw [Fin.append_left]
  unfold errorFunction
  simp only [hx]
  have ht : (bOf alpha * aOf alpha * x.transpose).transpose =
      x * (aOf alpha).transpose * (bOf alpha).transpose := by
    rw [transpose_mul, transpose_mul, transpose_transpose, Matrix.mul_assoc]
  rw [ht]
  have hp' : (p : K) ≠ 0 := by exact_mod_cast (Nat.pos_iff_ne_zero.1 hp)
  have hm' : ((n + q : Nat) : K) ≠ 0 := by exact_mod_cast (Nat.pos_iff_ne_zero.1 hm)
  unfold sumSquares
  rw [← Finset.sum_div]
  push_cast at hm' ⊢
  field_simp

end Verif.Pilot
