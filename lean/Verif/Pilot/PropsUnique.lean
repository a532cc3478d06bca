import Verif.Pilot.UniqueLemmas
/-!
# C151: the analytic projection is determined by the data, up to mirror images
-/
set_option autoImplicit false
set_option linter.unusedSectionVars false

namespace Verif.Pilot

open Matrix

variable {K : Type} [Field K] [LinearOrder K] [IsStrictOrderedRing K] {p n q : Nat}

/-- A library that keeps its contracts on the data `x`, `y`, whose eigenvalues are distinct. -/
structure Works (lib : Lib K p n q) (x : Matrix (Fin p) (Fin n) K) (y : Matrix (Fin p) (Fin q) K) :
    Prop where
  eigen : Eigen (gram fun i r => column x y r i) (lib.eig (gram fun i r => column x y r i)).1
    (lib.eig (gram fun i r => column x y r i)).2
  distinct : ∀ i j, i ≠ j → (lib.eig (gram fun i r => column x y r i)).1 i ≠
    (lib.eig (gram fun i r => column x y r i)).1 j
  sorts : Ascending (fun i => |(lib.eig (gram fun i r => column x y r i)).1 i|)
    (lib.argsort fun i => |(lib.eig (gram fun i r => column x y r i)).1 i|)
  inverts : ∀ m r, lib.inv m = some r → m * r = 1

/-- The places of the columns of the data after the features were reordered by `σ` and the
algorithms by `τ`. -/
def both (σ : Equiv.Perm (Fin n)) (τ : Equiv.Perm (Fin q)) : Equiv.Perm (Fin (n + q)) :=
  finSumFinEquiv.symm.trans ((Equiv.sumCongr σ τ).trans finSumFinEquiv)

theorem both_left (σ : Equiv.Perm (Fin n)) (τ : Equiv.Perm (Fin q)) (j : Fin n) :
    both σ τ (Fin.castAdd q j) = Fin.castAdd q (σ j) := by
  simp [both]

theorem both_right (σ : Equiv.Perm (Fin n)) (τ : Equiv.Perm (Fin q)) (j : Fin q) :
    both σ τ (Fin.natAdd n j) = Fin.natAdd n (τ j) := by
  simp [both]

theorem xBar_submatrix (x : Matrix (Fin p) (Fin n) K) (y : Matrix (Fin p) (Fin q) K)
    (ρ : Equiv.Perm (Fin p)) (σ : Equiv.Perm (Fin n)) (τ : Equiv.Perm (Fin q)) :
    xBar (x.submatrix ρ σ) (y.submatrix ρ τ) = (xBar x y).submatrix ρ (both σ τ) := by
  ext i r
  refine Fin.addCases (fun j => ?_) (fun j => ?_) r
  · rw [submatrix_apply, both_left]
    unfold xBar
    rw [Fin.append_left, Fin.append_left, submatrix_apply]
  · rw [submatrix_apply, both_right]
    unfold xBar
    rw [Fin.append_right, Fin.append_right, submatrix_apply]

theorem sq_submatrix {r s : Nat} (a : Matrix (Fin r) (Fin s) K) (e : Equiv.Perm (Fin r))
    (g : Equiv.Perm (Fin s)) : sq (a.submatrix e g) = sq a := by
  unfold sq
  simp only [submatrix_apply]
  rw [Equiv.sum_comp e (fun i => ∑ j, a i (g j) ^ 2)]
  exact Finset.sum_congr rfl fun i _ => Equiv.sum_comp g (fun j => a i j ^ 2)

theorem mean_comp {r : Nat} (u : Fin r → K) (e : Equiv.Perm (Fin r)) : mean (fun i => u (e i)) = mean u := by
  unfold mean
  rw [Equiv.sum_comp e u]

theorem sqCorr_comp {r : Nat} (u v : Fin r → K) (e : Equiv.Perm (Fin r)) :
    sqCorr (fun i => u (e i)) (fun i => v (e i)) = sqCorr u v := by
  unfold sqCorr
  simp only [mean_comp]
  rw [Equiv.sum_comp e (fun i => (u i - mean u) ^ 2), Equiv.sum_comp e (fun i => (v i - mean v) ^ 2),
    Equiv.sum_comp e (fun i => (u i - mean u) * (v i - mean v))]

/-- **C151** Take the same data with the instances, the features and the algorithms in another
order, and any two libraries that keep their contracts.  The two analytic projections have the same
points, coefficients and measures for the same instances, features and algorithms, except that each
of the two axes may be mirrored. -/
theorem C151_determined {lib lib' : Lib K p n q} {x : Matrix (Fin p) (Fin n) K}
    {y : Matrix (Fin p) (Fin q) K} {x' : Matrix (Fin p) (Fin n) K} {y' : Matrix (Fin p) (Fin q) K}
    {labels labels' : List String} {opts opts' : Options K n q}
    {out out' : Out K p n q} (ρ : Equiv.Perm (Fin p)) (σ : Equiv.Perm (Fin n)) (τ : Equiv.Perm (Fin q))
    (hx : ∀ i j, x' i j = x (ρ i) (σ j)) (hy : ∀ i j, y' i j = y (ρ i) (τ j))
    (hw : Works lib x y) (hw' : Works lib' x' y')
    (hm : opts.analytic = true) (hm' : opts'.analytic = true)
    (h : pilot lib x y labels opts = .ok out)
    (h' : pilot lib' x' y' labels' opts' = .ok out') :
    ∃ (hc : out.cCols = q) (hc' : out'.cCols = q) (s : Fin 2 → K), (∀ k, s k = 1 ∨ s k = -1) ∧
      (∀ i k, out'.z i k = s k * out.z (ρ i) k) ∧
      (∀ k j, out'.a k j = s k * out.a k (σ j)) ∧
      (∀ j k, out'.b j k = s k * out.b (σ j) k) ∧
      (∀ k (j : Fin q), out'.c k (j.cast hc'.symm) = s k * out.c k ((τ j).cast hc.symm)) ∧
      out'.error = out.error ∧
      (lib'.half = lib.half → (∀ j : Fin n, out'.r2[j.val]? = out.r2[(σ j).val]?) ∧
        ∀ j : Fin q, out'.r2[n + j.val]? = out.r2[n + (τ j).val]?) := by
  obtain ⟨hc, ij, w, r, htop, hwv, hr, ha, hz, hb, hcc, herr, hr2⟩ :=
    analytic_shape rfl hw.eigen hw.sorts hw.inverts hm h
  obtain ⟨hc', ij', w', r', htop', hwv', hr', ha', hz', hb', hcc', herr', hr2'⟩ :=
    analytic_shape rfl hw'.eigen hw'.sorts hw'.inverts hm' h'
  have hne := hw.distinct
  have hne' := hw'.distinct
  have he := hw.eigen
  have he' := hw'.eigen
  have hon := orthonormal_of_distinct he hne
  generalize (lib.eig (gram fun i r => column x y r i)).1 = d at *
  generalize (lib.eig (gram fun i r => column x y r i)).2 = v at *
  generalize hg1 : (lib'.eig (gram fun i r => column x' y' r i)).1
    = d' at *
  generalize hg2 : (lib'.eig (gram fun i r => column x' y' r i)).2
    = v' at *
  have hx' : x' = x.submatrix ρ σ := by
    ext i j
    exact hx i j
  have hy' : y' = y.submatrix ρ τ := by
    ext i j
    exact hy i j
  have hVV : v.transpose * v = 1 := by
    ext k l
    rw [mul_apply, one_apply]
    exact hon k l
  rw [gram_eq] at he he'
  rw [hx', hy', xBar_submatrix] at he' ha' herr' hr2'
  rw [hx'] at hr' hz'
  generalize hπ : both σ τ = π at *
  generalize hf : xBar x y = f at *
  -- the eigenvectors of the reordered data, put back in order
  have heb : Eigen (f.transpose * f) d' (v'.submatrix π.symm id) := by
    refine ⟨fun i k => ?_, fun k => ?_⟩
    · have := he'.vector (π.symm i) k
      rw [transpose_submatrix, submatrix_mul_equiv] at this
      simp only [submatrix_apply, id, Equiv.apply_symm_apply] at this ⊢
      rw [← this, ← Equiv.sum_comp π]
      exact Finset.sum_congr rfl fun j _ => by rw [Equiv.symm_apply_apply]
    · rw [← he'.unit k]
      exact Equiv.sum_comp π.symm (fun i => v' i k ^ 2)
  obtain ⟨⟨s0, hs0, h0⟩, ⟨s1, hs1, h1⟩⟩ := top_unique he heb hne hne' hVV htop htop'
  let s : Fin 2 → K := ![s0, s1]
  have hs : ∀ k, s k = 1 ∨ s k = -1 := by
    intro k
    fin_cases k
    · exact hs0
    · exact hs1
  have hss : ∀ k, s k * s k = 1 := by
    intro k
    rcases hs k with e | e <;> rw [e] <;> ring
  have hww : ∀ r k, w' r k = s k * w (π r) k := by
    intro r k
    rw [hwv, hwv']
    unfold leadingVectors
    fin_cases k
    · have := h0 (π r)
      simp only [submatrix_apply, id, Equiv.symm_apply_apply] at this
      simp [this, s]
    · have := h1 (π r)
      simp only [submatrix_apply, id, Equiv.symm_apply_apply] at this
      simp [this, s]
  have hwm : w' = w.submatrix π id * diagonal s := by
    ext r k
    rw [mul_diagonal, submatrix_apply, hww, mul_comm]
    rfl
  -- the inverse
  have hrr : r' = r.submatrix σ σ := by
    have e1 : x.submatrix ρ σ = x.submatrix ρ σ := rfl
    rw [transpose_submatrix, submatrix_mul_equiv] at hr'
    have h2 : (x.transpose * x).submatrix σ σ * r.submatrix σ σ = 1 := by
      rw [submatrix_mul_equiv, hr, submatrix_one_equiv]
    have h3 : r.submatrix σ σ * (x.transpose * x).submatrix σ σ = 1 := mul_eq_one_comm.1 h2
    calc r' = r.submatrix σ σ * (x.transpose * x).submatrix σ σ * r' := by rw [h3, Matrix.one_mul]
      _ = r.submatrix σ σ * ((x.transpose * x).submatrix σ σ * r') := Matrix.mul_assoc _ _ _
      _ = r.submatrix σ σ := by rw [hr', Matrix.mul_one]
  have haa : out'.a = diagonal s * out.a.submatrix id σ := by
    rw [ha', ha, hwm, hrr, transpose_mul, diagonal_transpose, transpose_submatrix, transpose_submatrix,
      Matrix.mul_assoc (diagonal s), submatrix_mul_equiv, submatrix_mul_equiv, Matrix.mul_assoc (diagonal s),
      submatrix_mul_equiv]
  have hzz : out'.z = out.z.submatrix ρ id * diagonal s := by
    rw [hz', haa, hz, transpose_mul, diagonal_transpose, transpose_submatrix, ← Matrix.mul_assoc,
      submatrix_mul_equiv]
  have hSS : diagonal s * diagonal s = 1 := by
    rw [diagonal_mul_diagonal, ← diagonal_one]
    congr 1
    funext k
    exact hss k
  have hrec : out'.z * w'.transpose = (out.z * w.transpose).submatrix ρ π := by
    rw [hzz, hwm, transpose_mul, diagonal_transpose, transpose_submatrix, Matrix.mul_assoc,
      ← Matrix.mul_assoc (diagonal s), hSS, Matrix.one_mul]
    rfl
  have hr2j : lib'.half = lib.half → ∀ j : Fin (n + q), out'.r2[j.val]? = out.r2[(π j).val]? := by
    intro hh j
    rw [hr2', hr2, List.getElem?_ofFn, List.getElem?_ofFn, dif_pos j.isLt, dif_pos (π j).isLt, hrec, hh]
    congr 2
    exact sqCorr_comp (fun i => f i (π j)) (fun i => (out.z * w.transpose) i (π j)) ρ
  refine ⟨hc, hc', s, hs, ?_, ?_, ?_, ?_, ?_, ?_⟩
  · intro i k
    rw [hzz, mul_diagonal, submatrix_apply, mul_comm]
    rfl
  · intro k j
    rw [haa, diagonal_mul, submatrix_apply]
    rfl
  · intro j k
    rw [hb', hb]
    simp only
    rw [hww, ← hπ, both_left]
  · intro k j
    have e1 : out'.c k (j.cast hc'.symm) = w' (Fin.natAdd n j) k := congrFun (congrFun hcc' k) j
    have e2 : out.c k ((τ j).cast hc.symm) = w (Fin.natAdd n (τ j)) k :=
      congrFun (congrFun hcc k) (τ j)
    rw [e1, e2, hww, ← hπ, both_right]
  · rw [herr', herr, hrec, sumSquares_eq, sumSquares_eq]
    exact sq_submatrix (f - out.z * w.transpose) ρ π
  · intro hh
    constructor
    · intro j
      have := hr2j hh (Fin.castAdd q j)
      rw [← hπ, both_left] at this
      exact this
    · intro j
      have := hr2j hh (Fin.natAdd n j)
      rw [← hπ, both_right] at this
      exact this

/-! ### An example -/

/-- Four instances, two features. -/
def exX2 : Matrix (Fin 4) (Fin 2) ℚ := of ![![1, 2], ![1, -2], ![-1, 2], ![-1, -2]]

/-- One algorithm: three quarters of the first feature. -/
def exY2 : Matrix (Fin 4) (Fin 1) ℚ := of ![![3 / 4], ![3 / 4], ![-3 / 4], ![-3 / 4]]

/-- The same features in the other order. -/
def exX2' : Matrix (Fin 4) (Fin 2) ℚ := of ![![2, 1], ![-2, 1], ![2, -1], ![-2, -1]]

/-- A library that is right for the data in the first order. -/
def exLib2 : Lib ℚ 4 2 1 where
  eig := fun _ => (![16, 25 / 4, 0],
    of ![![0, 4 / 5, -3 / 5], ![1, 0, 0], ![0, 3 / 5, 4 / 5]])
  argsort := fun _ => [2, 1, 0]
  inv := fun m => if m = of ![![4, 0], ![0, 16]] then some (of ![![1 / 4, 0], ![0, 1 / 16]]) else none
  half := id
  bfgs := fun f v => (v, f v)
  quality := fun z => some (z 0 0)
  starts := fun t => (List.range t).map fun i _ => i

/-- A library that is right for the data in the other order: other signs, other order. -/
def exLib2' : Lib ℚ 4 2 1 where
  eig := fun _ => (![0, 25 / 4, 16],
    of ![![0, 0, 1], ![-3 / 5, -4 / 5, 0], ![4 / 5, -3 / 5, 0]])
  argsort := fun _ => [0, 1, 2]
  inv := fun m => if m = of ![![16, 0], ![0, 4]] then some (of ![![1 / 16, 0], ![0, 1 / 4]]) else none
  half := id
  bfgs := fun f v => (v, f v)
  quality := fun z => some (z 0 0)
  starts := fun t => (List.range t).map fun i _ => i

theorem exLib2_works : Works exLib2 exX2 exY2 := by
  refine ⟨⟨by decide +kernel, by decide +kernel⟩, by decide +kernel, ⟨by decide +kernel, by decide +kernel⟩, ?_⟩
  intro m r h
  unfold exLib2 at h
  simp only at h
  split at h
  · rename_i hm
    injection h with h
    subst h
    subst hm
    decide +kernel
  · cases h

theorem exLib2'_works : Works exLib2' exX2' exY2 := by
  refine ⟨⟨by decide +kernel, by decide +kernel⟩, by decide +kernel, ⟨by decide +kernel, by decide +kernel⟩, ?_⟩
  intro m r h
  unfold exLib2' at h
  simp only at h
  split at h
  · rename_i hm
    injection h with h
    subst h
    subst hm
    decide +kernel
  · cases h

/-- The hypotheses of `C151_determined` hold with the two features exchanged; the second axis is
mirrored, the first is not. -/
example : (∀ i j, exX2' i j = exX2 (Equiv.refl (Fin 4) i) (Equiv.swap (0 : Fin 2) 1 j)) ∧
    ((pilot exLib2 exX2 exY2 ["f", "g"] { analytic := true, nTries := 3, alpha := none, x0 := none }).toOption.map
      fun o => (o.z 0 0, o.z 0 1, o.error)) = some (-2, -5 / 4, 0) ∧
    ((pilot exLib2' exX2' exY2 ["g", "f"] { analytic := true, nTries := 3, alpha := none, x0 := none }).toOption.map
      fun o => (o.z 0 0, o.z 0 1, o.error)) = some (-2, 5 / 4, 0) := by
  refine ⟨?_, by decide +kernel, by decide +kernel⟩
  intro i j
  fin_cases i <;> fin_cases j <;> decide +kernel

end Verif.Pilot
