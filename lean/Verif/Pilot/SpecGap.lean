import Verif.Pilot.SpecPicture
/-!
# Specification of the best pictures of the instance space, when they are unique (C212)
-/
set_option autoImplicit false

namespace Verif.Pilot

variable {K : Type} [Field K] [LinearOrder K] {p n q : Nat}

/-- `m` are the coefficients of the linear regression of the performances on the features: what they leave of a
performance is orthogonal to every feature. -/
def Regression (x : Matrix (Fin p) (Fin n) K) (y : Matrix (Fin p) (Fin q) K) (m : Matrix (Fin n) (Fin q) K) : Prop :=
  ∀ t j, ∑ i, x i t * (y i j - ∑ s, x i s * m s j) = 0

/-- The picture belongs to coefficients with the smallest possible reconstruction error. -/
def Best (x : Matrix (Fin p) (Fin n) K) (y : Matrix (Fin p) (Fin q) K) (z : Matrix (Fin p) (Fin 2) K) : Prop :=
  ∃ v a b c, Optimal x y v ∧ Encodes v a b c ∧ Projects x a z

/-- The second picture is the first one after a linear change of the plane that can be undone. -/
def LinearChange (z z' : Matrix (Fin p) (Fin 2) K) : Prop :=
  ∃ t s : Matrix (Fin 2) (Fin 2) K, s * t = 1 ∧ ∀ i k, z' i k = t k 0 * z i 0 + t k 1 * z i 1

end Verif.Pilot
