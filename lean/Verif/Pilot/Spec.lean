import Verif.Pilot.Model
/-!
# Specification of PILOT

Written with sums over instances, features and algorithms; no matrix operation of the model is
used.
-/
set_option autoImplicit false

namespace Verif.Pilot

variable {K : Type} [Field K] [LinearOrder K] {p n q : Nat}

/-- `z` is the image of the instances under `a`: `z = x aᵀ`. -/
def Projects (x : Matrix (Fin p) (Fin n) K) (a : Matrix (Fin 2) (Fin n) K)
    (z : Matrix (Fin p) (Fin 2) K) : Prop :=
  ∀ i k, z i k = ∑ j, x i j * a k j

/-- Reconstruction of a feature from the plane. -/
def reconX (z : Matrix (Fin p) (Fin 2) K) (b : Matrix (Fin n) (Fin 2) K) (i : Fin p) (j : Fin n) : K :=
  z i 0 * b j 0 + z i 1 * b j 1

/-- Reconstruction of a performance from the plane. -/
def reconY (z : Matrix (Fin p) (Fin 2) K) (c : Matrix (Fin 2) (Fin q) K) (i : Fin p) (j : Fin q) : K :=
  z i 0 * c 0 j + z i 1 * c 1 j

/-- The sum of the squared differences between features and performances and their
reconstructions. -/
def residual (x : Matrix (Fin p) (Fin n) K) (y : Matrix (Fin p) (Fin q) K)
    (z : Matrix (Fin p) (Fin 2) K) (b : Matrix (Fin n) (Fin 2) K) (c : Matrix (Fin 2) (Fin q) K) : K :=
  (∑ i, ∑ j, (x i j - reconX z b i j) ^ 2) + ∑ i, ∑ j, (y i j - reconY z c i j) ^ 2

/-- The `r`-th column of the data: the features, then the performances. -/
def column (x : Matrix (Fin p) (Fin n) K) (y : Matrix (Fin p) (Fin q) K) (r : Fin (n + q)) :
    Fin p → K :=
  fun i => Fin.addCases (fun j => x i j) (fun j => y i j) r

/-- Contract of `np.linalg.inv`: it inverts every invertible matrix. -/
structure Inverts (inv : Matrix (Fin n) (Fin n) K → Option (Matrix (Fin n) (Fin n) K)) : Prop where
  sound : ∀ m r, inv m = some r → m * r = 1
  complete : ∀ m, (∃ r, m * r = 1) → ∃ r, inv m = some r

/-- Contract of `la.eig` at a matrix: eigenvectors of length one as columns. -/
structure Eigen (m : Matrix (Fin n) (Fin n) K) (d : Fin n → K) (v : Matrix (Fin n) (Fin n) K) :
    Prop where
  vector : ∀ i k, ∑ j, m i j * v j k = d k * v i k
  unit : ∀ k, ∑ i, v i k ^ 2 = 1

/-- Contract of `np.argsort` at a vector: a permutation of the positions, values ascending. -/
structure Ascending (d : Fin n → K) (order : List (Fin n)) : Prop where
  all : order.Perm (List.finRange n)
  sorted : order.Pairwise fun i j => d i ≤ d j

/-- Contract of the rounding to half precision: the values have eleven significant bits, and
integers with at most eleven bits are kept. -/
structure Half (half : ℚ → ℚ) : Prop where
  bits : ∀ v, ∃ (m e : Int), |m| < 2 ^ 11 ∧ half v = m * (2 : ℚ) ^ e
  integers : ∀ m : Int, |m| < 2 ^ 11 → half m = m

/-- Sum of the products of features (or performances) `u` and `v` over the instances. -/
def gram {r : Nat} (t : Matrix (Fin p) (Fin r) K) : Matrix (Fin r) (Fin r) K :=
  fun u v => ∑ i, t i u * t i v

/-- The columns are linearly independent. -/
def Independent (x : Matrix (Fin p) (Fin n) K) : Prop :=
  ∀ w : Fin n → K, (∀ i, ∑ j, x i j * w j = 0) → ∀ j, w j = 0

end Verif.Pilot
