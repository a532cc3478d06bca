import Verif.Pilot.EckartLemmas
/-!
# How close the analytic solution of PILOT is to the best one (C108)
-/
set_option autoImplicit false
set_option linter.unusedSectionVars false

namespace Verif.Pilot

open Matrix

variable {K : Type} [Field K] [LinearOrder K] [IsStrictOrderedRing K] {p n q : Nat}

/-- Columns of length one, every two of them orthogonal. -/
def Orthonormal {m : Nat} (v : Matrix (Fin m) (Fin m) K) : Prop :=
  ∀ k l, ∑ r, v r k * v r l = if k = l then 1 else 0

theorem residual_directions (x : Matrix (Fin p) (Fin n) K) (y : Matrix (Fin p) (Fin q) K)
    (z : Matrix (Fin p) (Fin 2) K) (b : Matrix (Fin n) (Fin 2) K) (c : Matrix (Fin 2) (Fin q) K) :
    residual x y z b c =
      ∑ i, ∑ r, (xBar x y i r - (z i 0 * direction b c 0 r + z i 1 * direction b c 1 r)) ^ 2 := by
  have h := residual_eq x y z (fun r k => direction b c k r)
  have hb : (fun i k => direction b c k (Fin.castAdd q i) : Matrix (Fin n) (Fin 2) K) = b := by
    funext i k
    exact Fin.addCases_left (motive := fun _ => K) i
  have hc : (fun k j => direction b c k (Fin.natAdd n j) : Matrix (Fin 2) (Fin q) K) = c := by
    funext k j
    exact Fin.addCases_right (motive := fun _ => K) j
  rw [hb, hc] at h
  rw [← h]
  unfold sumSquares
  refine Finset.sum_congr rfl fun i _ => Finset.sum_congr rfl fun r _ => ?_
  rw [mul_apply, Fin.sum_univ_two]
  rfl

/-- Eigenvectors of the products of the data are orthogonal when their eigenvalues differ. -/
theorem orthonormal_of_distinct {t : Matrix (Fin p) (Fin n) K} {d : Fin n → K}
    {v : Matrix (Fin n) (Fin n) K} (he : Eigen (gram t) d v) (hne : ∀ i j, i ≠ j → d i ≠ d j) :
    Orthonormal v := by
  intro k l
  by_cases hkl : k = l
  · rw [if_pos hkl, hkl, ← he.unit l]
    exact Finset.sum_congr rfl fun r _ => (pow_two _).symm
  · rw [if_neg hkl]
    have hsym : ∀ r s, gram t r s = gram t s r := by
      intro r s
      unfold gram
      exact Finset.sum_congr rfl fun i _ => mul_comm _ _
    have h1 : d k * ∑ r, v r k * v r l = d l * ∑ r, v r k * v r l := by
      calc d k * ∑ r, v r k * v r l = ∑ r, (d k * v r k) * v r l := by
            rw [Finset.mul_sum]
            exact Finset.sum_congr rfl fun r _ => by ring
        _ = ∑ r, ∑ s, gram t r s * v s k * v r l := by
            refine Finset.sum_congr rfl fun r _ => ?_
            rw [← he.vector, Finset.sum_mul]
        _ = ∑ s, ∑ r, gram t r s * v s k * v r l := Finset.sum_comm
        _ = ∑ s, v s k * (d l * v s l) := by
            refine Finset.sum_congr rfl fun s _ => ?_
            rw [← he.vector, Finset.mul_sum]
            refine Finset.sum_congr rfl fun r _ => ?_
            rw [hsym r s]
            ring
        _ = d l * ∑ r, v r k * v r l := by
            rw [Finset.mul_sum]
            exact Finset.sum_congr rfl fun r _ => by ring
    have h2 : (d k - d l) * ∑ r, v r k * v r l = 0 := by
      rw [sub_mul, h1, sub_self]
    rcases mul_eq_zero.1 h2 with h3 | h3
    · exact absurd (sub_eq_zero.1 h3) (hne _ _ hkl)
    · exact h3

/-- The two parts of the error of the analytic solution. -/
theorem error_parts {lib : Lib K p n q} {x : Matrix (Fin p) (Fin n) K}
    {y : Matrix (Fin p) (Fin q) K} {labels : List String} {opts : Options K n q} {out : Out K p n q}
    {d : Fin (n + q) → K} {v : Matrix (Fin (n + q)) (Fin (n + q)) K}
    (hd : lib.eig (gram fun i r => column x y r i) = (d, v))
    (he : Eigen (gram fun i r => column x y r i) d v) (hv : Orthonormal v)
    (hs : Ascending (fun i => |d i|) (lib.argsort fun i => |d i|))
    (hinv : ∀ m r, lib.inv m = some r → m * r = 1) (hm : opts.analytic = true)
    (h : pilot lib x y labels opts = .ok out) :
    ∃ (hc : out.cCols = q) (e : Fin 2 → Fin (n + q)) (w : Matrix (Fin (n + q)) (Fin 2) K), e 0 ≠ e 1 ∧
      w.transpose * w = 1 ∧ out.b = (fun i => w (Fin.castAdd q i)) ∧
      (fun k j => out.c k (j.cast hc.symm)) = (fun k j => w (Fin.natAdd n j) k) ∧
      d (e 1) ≤ d (e 0) ∧ (∀ r, r ≠ e 0 → d r ≤ d (e 1)) ∧
      out.error = (∑ k, d k - (d (e 0) + d (e 1))) +
        sq (w.transpose * (xBar x y).transpose - out.a * x.transpose) ∧
      (∀ a', sq (w.transpose * (xBar x y).transpose - out.a * x.transpose) ≤
        sq (w.transpose * (xBar x y).transpose - a' * x.transpose)) := by
  obtain ⟨hc', e, he01, hvec, hunit, habs1, habs2⟩ := C78_directions hd he hs hm h
  obtain ⟨s, hc, hsol, ha, hz, hcc, hb, herr, _⟩ := analytic_ok hm h
  obtain ⟨ij, w, r, hij, hwv, hr, hsa, hsz, hsb, hsc, hse, _⟩ := analyticSolve_ok hsol
  rw [gram_eq] at he hvec
  have hdn := eigen_nonneg he
  have hVV : v.transpose * v = 1 := by
    ext k l
    rw [mul_apply, one_apply]
    exact hv k l
  have e1 : (fun (k : Fin 2) (j : Fin q) => out.c k (j.cast hc.symm)) =
      fun k j => w (Fin.natAdd n j) k := by
    funext k j
    rw [hcc, hsc]
  rw [e1, hb, hsb] at hvec hunit
  simp only [direction_eq] at hvec hunit
  have hw : w.transpose * w = 1 := by
    have hne : ij.1 ≠ ij.2 := by
      unfold leading at hij
      rw [← gram_eq, hd] at hij
      split at hij
      · rename_i i j l hl
        injection hij with hij
        subst hij
        have hnd : (lib.argsort fun i => |d i|).reverse.Nodup :=
          List.nodup_reverse.2 (hs.all.nodup_iff.2 (List.nodup_finRange _))
        rw [hl] at hnd
        intro e
        simp only at e
        rw [List.nodup_cons, e] at hnd
        exact hnd.1 (by simp)
      · cases hij
    ext k l
    rw [mul_apply, one_apply, hwv, ← gram_eq, hd]
    have e2 : ∑ j, (leadingVectors v ij).transpose k j * leadingVectors v ij j l =
        ∑ j, v j (if k = 0 then ij.1 else ij.2) * v j (if l = 0 then ij.1 else ij.2) := by
      refine Finset.sum_congr rfl fun j _ => ?_
      rw [transpose_apply]
      unfold leadingVectors
      ring
    rw [e2, hv]
    fin_cases k <;> fin_cases l <;> simp [hne, hne.symm]
  refine ⟨hc, e, w, he01, hw, by rw [hb, hsb], e1, ?_, ?_, ?_, ?_⟩
  · rwa [abs_of_nonneg (hdn _), abs_of_nonneg (hdn _)] at habs1
  · intro r hr
    have := habs2 r hr
    rwa [abs_of_nonneg (hdn _), abs_of_nonneg (hdn _)] at this
  · have hkeep : sq (w.transpose * (xBar x y).transpose) = d (e 0) + d (e 1) := by
      have hk : ∀ k, ∑ i, (w.transpose * (xBar x y).transpose) k i ^ 2 = d (e k) := by
        intro k
        have e3 : ∑ i, (w.transpose * (xBar x y).transpose) k i ^ 2 =
            (xBar x y *ᵥ fun r => w r k) ⬝ᵥ (xBar x y *ᵥ fun r => w r k) := by
          refine Finset.sum_congr rfl fun i _ => ?_
          rw [← pow_two]
          congr 1
          rw [mul_apply]
          exact Finset.sum_congr rfl fun r _ => mul_comm _ _
        rw [e3, adjoint, Matrix.mulVec_mulVec]
        have e4 : ((xBar x y).transpose * xBar x y) *ᵥ (fun r => w r k) = fun r => d (e k) * w r k := by
          funext r
          exact hvec k r
        rw [e4]
        have e5 : (fun r => w r k) ⬝ᵥ (fun r => d (e k) * w r k) = d (e k) * ∑ r, w r k ^ 2 := by
          unfold dotProduct
          rw [Finset.mul_sum]
          exact Finset.sum_congr rfl fun r _ => by ring
        rw [e5, hunit, mul_one]
      unfold sq
      rw [Fin.sum_univ_two, hk, hk]
    have htr := trace_eigen hVV he
    have hsp := sq_split w (xBar x y).transpose hw
    rw [sq_transpose, htr, hkeep] at hsp
    have horth' : w.transpose * ((xBar x y).transpose - w * (w.transpose * (xBar x y).transpose)) = 0 := by
      rw [Matrix.mul_sub, ← Matrix.mul_assoc w.transpose w, hw, Matrix.one_mul, sub_self]
    have key : sumSquares (xBar x y) (x * s.a.transpose * w.transpose) =
        sq ((xBar x y).transpose - w * (w.transpose * (xBar x y).transpose)) +
          sq (w.transpose * (xBar x y).transpose - s.a * x.transpose) := by
      rw [← sq_isometry w (w.transpose * (xBar x y).transpose - s.a * x.transpose) hw,
        ← sq_add _ _ _ horth', sumSquares_eq, ← sq_transpose, transpose_sub,
        transpose_mul, transpose_mul, transpose_transpose, transpose_transpose, Matrix.mul_sub]
      congr 1
      abel
    rw [herr, hse, hsz, key, ha]
    linarith
  · intro a'
    rw [ha, hsa]
    exact least_squares (hinv _ _ hr) (w.transpose * (xBar x y).transpose) a'

/-- **C108, what no choice can avoid.**  When the eigenvectors are orthonormal, the error of the
analytic solution is the sum of all eigenvalues but the two largest, plus the squared distance
between the coordinates of the data along the two directions and the points of the plane; and no
points, `b` and `c` whatsoever have an error below the first part. -/
theorem C108_floor_partial {lib : Lib K p n q} {x : Matrix (Fin p) (Fin n) K}
    {y : Matrix (Fin p) (Fin q) K} {labels : List String} {opts : Options K n q} {out : Out K p n q}
    {d : Fin (n + q) → K} {v : Matrix (Fin (n + q)) (Fin (n + q)) K}
    (hd : lib.eig (gram fun i r => column x y r i) = (d, v))
    (he : Eigen (gram fun i r => column x y r i) d v) (hv : Orthonormal v)
    (hs : Ascending (fun i => |d i|) (lib.argsort fun i => |d i|))
    (hinv : ∀ m r, lib.inv m = some r → m * r = 1) (hm : opts.analytic = true)
    (h : pilot lib x y labels opts = .ok out) :
    ∃ (hc : out.cCols = q) (e : Fin 2 → Fin (n + q)), e 0 ≠ e 1 ∧ d (e 1) ≤ d (e 0) ∧
      (∀ r, r ≠ e 0 → d r ≤ d (e 1)) ∧
      out.error = (∑ k, d k - (d (e 0) + d (e 1))) + ∑ k, ∑ i,
        (target x y out.b (fun k j => out.c k (j.cast hc.symm)) i k - ∑ j, x i j * out.a k j) ^ 2 ∧
      ∀ z' b' c', ∑ k, d k - (d (e 0) + d (e 1)) ≤ residual x y z' b' c' := by
  obtain ⟨hc, e, w, he01, hw, hb, hcc, h1, h2, herr, _⟩ := error_parts hd he hv hs hinv hm h
  refine ⟨hc, e, he01, h1, h2, ?_, ?_⟩
  · rw [herr]
    congr 1
    unfold sq
    refine Finset.sum_congr rfl fun k _ => Finset.sum_congr rfl fun i _ => ?_
    rw [hcc, hb, Matrix.sub_apply, ← target_eq, mul_apply]
    congr 2
    exact Finset.sum_congr rfl fun j _ => mul_comm _ _
  · intro z' b' c'
    rw [residual_directions]
    have hVV : v.transpose * v = 1 := by
      ext k l
      rw [mul_apply, one_apply]
      exact hv k l
    rw [gram_eq] at he
    exact eckart hVV he h1 h2 z' (direction b' c')

/-- **C108, within a factor of two.**  When the eigenvectors are orthonormal, the error of the
analytic solution is at most twice the error of any other `a`, `b` and `c`. -/
theorem C108_twice_partial {lib : Lib K p n q} {x : Matrix (Fin p) (Fin n) K}
    {y : Matrix (Fin p) (Fin q) K} {labels : List String} {opts : Options K n q} {out : Out K p n q}
    {d : Fin (n + q) → K} {v : Matrix (Fin (n + q)) (Fin (n + q)) K}
    (hd : lib.eig (gram fun i r => column x y r i) = (d, v))
    (he : Eigen (gram fun i r => column x y r i) d v) (hv : Orthonormal v)
    (hs : Ascending (fun i => |d i|) (lib.argsort fun i => |d i|))
    (hinv : ∀ m r, lib.inv m = some r → m * r = 1) (hm : opts.analytic = true)
    (h : pilot lib x y labels opts = .ok out)
    (a' : Matrix (Fin 2) (Fin n) K) (b' : Matrix (Fin n) (Fin 2) K) (c' : Matrix (Fin 2) (Fin q) K) :
    out.error ≤ 2 * residual x y (fun i k => ∑ j, x i j * a' k j) b' c' := by
  obtain ⟨hc, e, w, he01, hw, hb, hcc, h1, h2, herr, hls⟩ := error_parts hd he hv hs hinv hm h
  have hVV : v.transpose * v = 1 := by
    ext k l
    rw [mul_apply, one_apply]
    exact hv k l
  rw [gram_eq] at he
  have hfl := eckart hVV he h1 h2 (fun i k => ∑ j, x i j * a' k j) (direction b' c')
  rw [← residual_directions x y (fun i k => ∑ j, x i j * a' k j) b' c'] at hfl
  -- the features as they are, the performances as the other solution has them
  have hlin : ∀ m : Matrix (Fin n) (Fin q) K,
      sq (w.transpose * (xBar x y).transpose -
        w.transpose * (xBar (1 : Matrix (Fin n) (Fin n) K) m).transpose * x.transpose) ≤
      ∑ i, ∑ j, (y i j - (x * m) i j) ^ 2 := by
    intro m
    rw [Matrix.mul_assoc, ← Matrix.mul_sub]
    refine le_trans (sq_contract _ _ hw) (le_of_eq ?_)
    rw [← transpose_mul, ← transpose_sub, sq_transpose]
    unfold sq
    refine Finset.sum_congr rfl fun i _ => ?_
    rw [Fin.sum_univ_add]
    have e1 : ∑ j, (xBar x y - x * xBar (1 : Matrix (Fin n) (Fin n) K) m) i (Fin.castAdd q j) ^ 2 = 0 := by
      refine Finset.sum_eq_zero fun j _ => ?_
      have : (x * xBar (1 : Matrix (Fin n) (Fin n) K) m) i (Fin.castAdd q j) =
          (x * (1 : Matrix (Fin n) (Fin n) K)) i j := by
        rw [mul_apply, mul_apply]
        refine Finset.sum_congr rfl fun t _ => ?_
        unfold xBar
        rw [Fin.append_left]
      rw [Matrix.sub_apply, this, Matrix.mul_one]
      unfold xBar
      rw [Fin.append_left]
      simp
    rw [e1, zero_add]
    refine Finset.sum_congr rfl fun j _ => ?_
    have : (x * xBar (1 : Matrix (Fin n) (Fin n) K) m) i (Fin.natAdd n j) = (x * m) i j := by
      rw [mul_apply, mul_apply]
      refine Finset.sum_congr rfl fun t _ => ?_
      unfold xBar
      rw [Fin.append_right]
    rw [Matrix.sub_apply, this]
    unfold xBar
    rw [Fin.append_right]
  have h3 := le_trans (hls _) (hlin (a'.transpose * c'))
  have h4 : ∑ i, ∑ j, (y i j - (x * (a'.transpose * c')) i j) ^ 2 ≤
      residual x y (fun i k => ∑ j, x i j * a' k j) b' c' := by
    unfold residual
    have e2 : ∑ i, ∑ j, (y i j - (x * (a'.transpose * c')) i j) ^ 2 =
        ∑ i, ∑ j, (y i j - reconY (fun i k => ∑ j, x i j * a' k j) c' i j) ^ 2 := by
      refine Finset.sum_congr rfl fun i _ => Finset.sum_congr rfl fun j _ => ?_
      rw [← Matrix.mul_assoc, mul_apply, Fin.sum_univ_two]
      rfl
    rw [e2]
    have h5 : 0 ≤ ∑ i, ∑ j, (x i j - reconX (fun i k => ∑ j, x i j * a' k j) b' i j) ^ 2 :=
      Finset.sum_nonneg fun i _ => Finset.sum_nonneg fun j _ => sq_nonneg _
    linarith
  rw [herr]
  linarith

/-- **C108, when the features determine the performances linearly.**  Then, with orthonormal
eigenvectors, no points, `b` and `c` whatsoever have a smaller error than the analytic solution. -/
theorem C108_linear_partial {lib : Lib K p n q} {x : Matrix (Fin p) (Fin n) K}
    {y : Matrix (Fin p) (Fin q) K} {labels : List String} {opts : Options K n q} {out : Out K p n q}
    {d : Fin (n + q) → K} {v : Matrix (Fin (n + q)) (Fin (n + q)) K}
    (hd : lib.eig (gram fun i r => column x y r i) = (d, v))
    (he : Eigen (gram fun i r => column x y r i) d v) (hv : Orthonormal v)
    (hs : Ascending (fun i => |d i|) (lib.argsort fun i => |d i|))
    (hinv : ∀ m r, lib.inv m = some r → m * r = 1) (hm : opts.analytic = true)
    (h : pilot lib x y labels opts = .ok out)
    (m : Fin n → Fin q → K) (hy : ∀ i j, y i j = ∑ t, x i t * m t j)
    (z' : Matrix (Fin p) (Fin 2) K) (b' : Matrix (Fin n) (Fin 2) K) (c' : Matrix (Fin 2) (Fin q) K) :
    out.error ≤ residual x y z' b' c' := by
  obtain ⟨hc, e, w, he01, hw, hb, hcc, h1, h2, herr, hls⟩ := error_parts hd he hv hs hinv hm h
  have hVV : v.transpose * v = 1 := by
    ext k l
    rw [mul_apply, one_apply]
    exact hv k l
  rw [gram_eq] at he
  have hfl := eckart hVV he h1 h2 z' (direction b' c')
  rw [← residual_directions] at hfl
  have hx : xBar x y = x * xBar (1 : Matrix (Fin n) (Fin n) K) (of m) := by
    ext i r
    rw [mul_apply]
    unfold xBar
    refine Fin.addCases (fun j => ?_) (fun j => ?_) r
    · simp only [Fin.append_left]
      have := mul_apply (M := x) (N := (1 : Matrix (Fin n) (Fin n) K)) (i := i) (k := j)
      rw [Matrix.mul_one] at this
      exact this
    · simp only [Fin.append_right]
      exact hy i j
  have h3 := hls (w.transpose * (xBar (1 : Matrix (Fin n) (Fin n) K) (of m)).transpose)
  have h4 : w.transpose * (xBar x y).transpose -
      w.transpose * (xBar (1 : Matrix (Fin n) (Fin n) K) (of m)).transpose * x.transpose = 0 := by
    rw [Matrix.mul_assoc, ← transpose_mul x, ← hx, sub_self]
  have h5 : sq (0 : Matrix (Fin 2) (Fin p) K) = 0 := by
    unfold sq
    simp
  rw [h4, h5] at h3
  rw [herr]
  linarith

/-! ### Examples -/

/-- The library of the example: orthonormal eigenvectors, right inverses. -/
theorem exLib_orthonormal : Orthonormal exV ∧
    (∀ m r, exLib.inv m = some r → m * r = 1) := by
  constructor
  · intro k l
    revert k l
    decide +kernel
  · intro m r h
    unfold exLib at h
    simp only at h
    split at h
    · rename_i hm
      injection h with h
      subst h
      ext i j
      rw [mul_apply, Fin.sum_univ_two]
      fin_cases i <;> fin_cases j <;> simp [hm.1, hm.2.1, hm.2.2.1, hm.2.2.2]
    · cases h

/-- There the unavoidable part is 4 of 20, and 20 is at most twice the 16 of the other solution. -/
example : ∑ k, exD k - (exD 0 + exD 1) = 4 := by decide +kernel

example (out : Out ℚ 4 2 4) (h : pilot exLib exX exY exLabels (exOpts true) = .ok out)
    (a' : Matrix (Fin 2) (Fin 2) ℚ) (b' : Matrix (Fin 2) (Fin 2) ℚ) (c' : Matrix (Fin 2) (Fin 4) ℚ) :
    out.error ≤ 2 * residual exX exY (fun i k => ∑ j, exX i j * a' k j) b' c' :=
  C108_twice_partial (d := exD) (v := exV) rfl exLib_contract.1 exLib_orthonormal.1 exLib_contract.2
    exLib_orthonormal.2 rfl h a' b' c'

/-- Four instances with three uncorrelated features. -/
def exX3 : Matrix (Fin 4) (Fin 3) ℚ := of ![![1, 1, 1], ![1, -1, -1], ![-1, 1, -1], ![-1, -1, 1]]

/-- An algorithm whose performance is three quarters of the third feature. -/
def exY3 : Matrix (Fin 4) (Fin 1) ℚ := of ![![3 / 4], ![-3 / 4], ![-3 / 4], ![3 / 4]]

/-- The performance as a linear function of the features. -/
def exM3 : Fin 3 → Fin 1 → ℚ := ![![0], ![0], ![3 / 4]]

/-- The eigenvectors as columns. -/
def exV3 : Matrix (Fin (3 + 1)) (Fin (3 + 1)) ℚ :=
  of ![![0, 1, 0, 0], ![0, 0, 1, 0], ![4 / 5, 0, 0, -3 / 5], ![3 / 5, 0, 0, 4 / 5]]

/-- The eigenvalues. -/
def exD3 : Fin (3 + 1) → ℚ := ![25 / 4, 4, 4, 0]

/-- A library that is right for these data. -/
def exLib3 : Lib ℚ 4 3 1 where
  eig := fun _ => (exD3, exV3)
  argsort := fun _ => [3, 2, 1, 0]
  inv := fun m => if m = 4 then some ((1 / 4 : ℚ) • (1 : Matrix (Fin 3) (Fin 3) ℚ)) else none
  half := id
  bfgs := fun f v => (v, f v)
  quality := fun z => some (z 0 0)
  starts := fun t => (List.range t).map fun i _ => i

/-- The hypotheses of the linear case hold, and the error is 4: one of the three features is lost. -/
example : Eigen (gram fun i r => column exX3 exY3 r i) exD3 exV3 ∧ Orthonormal exV3 ∧
    Ascending (fun i => |exD3 i|) (exLib3.argsort fun i => |exD3 i|) ∧
    (∀ m r, exLib3.inv m = some r → m * r = 1) ∧
    (∀ i j, exY3 i j = ∑ t, exX3 i t * exM3 t j) ∧
    (pilot exLib3 exX3 exY3 ["f", "g", "h"] { analytic := true, nTries := 3, alpha := none, x0 := none }).toOption.map
      (fun o => o.error) = some 4 := by
  refine ⟨⟨by decide +kernel, by decide +kernel⟩, fun k l => by revert k l; decide +kernel,
    ⟨by decide +kernel, by decide +kernel⟩, ?_, ?_, by decide +kernel⟩
  swap
  · intro i j
    fin_cases i <;> fin_cases j <;> decide +kernel
  intro m r h
  unfold exLib3 at h
  simp only at h
  split at h
  · rename_i hm
    injection h with h
    subst h
    subst hm
    decide +kernel
  · cases h

end Verif.Pilot
