import Verif.Pilot.SpecVector
/-!
# Specification of pictures of the instance space that are equally good (C212)
-/
set_option autoImplicit false

namespace Verif.Pilot

variable {K : Type} [Field K] [LinearOrder K] {p n q : Nat}

/-- The two pictures are the same up to rotation, reflection, shift and scale: the squared distances between
the instances are proportional. -/
def Similar (z z' : Matrix (Fin p) (Fin 2) K) : Prop :=
  ∃ s : K, 0 < s ∧ ∀ i j,
    (z' i 0 - z' j 0) ^ 2 + (z' i 1 - z' j 1) ^ 2 = s * ((z i 0 - z j 0) ^ 2 + (z i 1 - z j 1) ^ 2)

/-- The vector stands for coefficients with the smallest possible reconstruction error. -/
def Optimal (x : Matrix (Fin p) (Fin n) K) (y : Matrix (Fin p) (Fin q) K)
    (v : Fin (2 * (n + q) + 2 * n) → K) : Prop :=
  ∀ a b c z, Encodes v a b c → Projects x a z →
    ∀ (a' : Matrix (Fin 2) (Fin n) K) (b' : Matrix (Fin n) (Fin 2) K) (c' : Matrix (Fin 2) (Fin q) K)
      (z' : Matrix (Fin p) (Fin 2) K), Projects x a' z' → residual x y z b c ≤ residual x y z' b' c'

/-- Every direction of the plane shows up in the reconstructions. -/
def NoIdleDirection (b : Matrix (Fin n) (Fin 2) K) (c : Matrix (Fin 2) (Fin q) K) : Prop :=
  ∀ u v : K, (∀ j, u * b j 0 + v * b j 1 = 0) → (∀ j, u * c 0 j + v * c 1 j = 0) → u = 0 ∧ v = 0

/-- The instances do not lie on a line through the origin. -/
def Planar (z : Matrix (Fin p) (Fin 2) K) : Prop :=
  ∀ u v : K, (∀ i, u * z i 0 + v * z i 1 = 0) → u = 0 ∧ v = 0

/-- The full claim: optimisers that always reach coefficients with the smallest reconstruction error draw the
same picture of the same data, up to rotation, reflection, shift and scale. -/
def OnePicture (half : ℚ → ℚ) : Prop :=
  ∀ (p n q : Nat) (lib lib' : Lib ℚ p n q) (x : Matrix (Fin p) (Fin n) ℚ) (y : Matrix (Fin p) (Fin q) ℚ)
    (labels : List String) (opts : Options ℚ n q) (out out' : Out ℚ p n q),
    lib.half = half → lib'.half = half →
    (∀ f guess, Optimal x y (lib.bfgs f guess).1) → (∀ f guess, Optimal x y (lib'.bfgs f guess).1) →
    opts.analytic = false → pilot lib x y labels opts = .ok out → pilot lib' x y labels opts = .ok out' →
    Similar out.z out'.z

end Verif.Pilot
