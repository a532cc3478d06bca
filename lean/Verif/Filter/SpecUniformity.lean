import Verif.Filter.Uniformity
/-!
# Specification of the uniformity score
-/
set_option autoImplicit false

namespace Verif.Filter

/-- `r` is the distance from instance `j` to the nearest other instance. -/
def NearestOther {n : Nat} (x : Fin n → List ℝ) (j : Fin n) (r : ℝ) : Prop :=
  (∃ i, i ≠ j ∧ euclid (x i) (x j) = r) ∧ ∀ i, i ≠ j → r ≤ euclid (x i) (x j)

end Verif.Filter
