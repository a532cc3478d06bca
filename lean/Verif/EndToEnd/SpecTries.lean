import Verif.EndToEnd.Spec
/-!
# Specification of what PILOT leaves in the Model
-/
set_option autoImplicit false

namespace Verif.EndToEnd

open Verif (Num)
open Verif.Pipeline (Name)
open Verif.Runner (Dict)

variable {V W : Type}

/-- The array `n` of the output has these entries. -/
def Stores {p q : Nat} (d : Dict Name (Val V W)) (n : Name) (m : Matrix (Fin p) (Fin q) ℚ) : Prop :=
  ∃ t, d n = some (.table t) ∧ t.ncols = q ∧ t.rows.length = p ∧ ∀ (i : Fin p) (j : Fin q), At t.rows i j (.fin (m i j))

/-- Every performance in the output is a number, none is missing. -/
def NoneMissing (d : Dict Name (Val V W)) : Prop :=
  ∃ y, d .y = some (.table y) ∧ ∀ r ∈ y.rows, ∀ v ∈ r, v ≠ .nan

/-- What is left of features `x` and performances `y` when each is reconstructed as a combination of the two
coordinates: the sum of the squares. -/
def unexplained {p n q : Nat} (x : Matrix (Fin p) (Fin n) ℚ) (y : Matrix (Fin p) (Fin q) ℚ)
    (z : Matrix (Fin p) (Fin 2) ℚ) (b : Matrix (Fin n) (Fin 2) ℚ) (c : Matrix (Fin 2) (Fin q) ℚ) : ℚ :=
  (∑ i, ∑ j, (x i j - (z i 0 * b j 0 + z i 1 * b j 1)) ^ 2) +
    ∑ i, ∑ j, (y i j - (z i 0 * c 0 j + z i 1 * c 1 j)) ^ 2

/-- The error is what is left of the features and performances in the output when they are reconstructed from
the coordinates in the output with its matrices `b` and `c`. -/
def Explained (d : Dict Name (Val V W)) : Prop :=
  ∃ (p n q : Nat) (x : Matrix (Fin p) (Fin n) ℚ) (y : Matrix (Fin p) (Fin q) ℚ) (z : Matrix (Fin p) (Fin 2) ℚ)
    (b : Matrix (Fin n) (Fin 2) ℚ) (c : Matrix (Fin 2) (Fin q) ℚ),
    Stores d .x x ∧ Stores d .y y ∧ Stores d .z z ∧ Stores d .b b ∧ Stores d .c c ∧
      d .error = some (.numbers [.fin (unexplained x y z b c)])

/-- Try `i` is the best of the tries with these qualities, unless one of them is NaN. -/
def BestTry (perf : List Num) (i : Nat) : Prop :=
  i < perf.length ∧ ((∀ v ∈ perf, v ≠ .nan) → ∃ best, perf[i]? = some (.fin best) ∧
    ∀ v, .fin v ∈ perf → v ≤ best)

/-- The projection matrix `a` and the matrix `b` in the output are column `i` of `alpha`: first the rows of `a`,
then the rows of `b`. -/
def ReadFrom (d : Dict Name (Val V W)) (alpha : List (List Num)) (i : Nat) : Prop :=
  ∃ (n : Nat) (a : Matrix (Fin 2) (Fin n) ℚ) (b : Matrix (Fin n) (Fin 2) ℚ), Stores d .a a ∧ Stores d .b b ∧
    (∀ (k : Fin 2) (j : Fin n), At alpha (k * n + j) i (.fin (a k j))) ∧
    ∀ (j : Fin n) (k : Fin 2), At alpha (2 * n + (2 * j + k)) i (.fin (b j k))

end Verif.EndToEnd
