import Verif.Sifted.Spec
/-!
# Specification vocabulary for the correlations of SIFTED (C133, C134)
-/
set_option autoImplicit false

namespace Verif.Sifted

open Verif (Num)

/-- Both columns have a value (not NaN) for instance `i`. -/
def BothPresent (x y : List Num) (i : Nat) : Prop :=
  ∃ u v, x[i]? = some u ∧ y[i]? = some v ∧ u ≠ .nan ∧ v ≠ .nan

/-- `P` lists the values of the instances `is`, in order. -/
def ValuesAt (x y : List Num) (is : List Nat) (P : List (Num × Num)) : Prop :=
  P.length = is.length ∧
    ∀ (k i : Nat) u v, is[k]? = some i → P[k]? = some (u, v) → x[i]? = some u ∧ y[i]? = some v

/-- `P` are the values of exactly the instances where both columns have one, each once, in order. -/
def PairsPresent (x y : List Num) (P : List (Num × Num)) : Prop :=
  ∃ is : List Nat, is.Pairwise (· < ·) ∧ (∀ i, i ∈ is ↔ BothPresent x y i) ∧ ValuesAt x y is P

/-- Entry `i`, `j` of a table. -/
def At {α : Type} (m : List (List α)) (i j : Nat) (v : α) : Prop :=
  ∃ r, m[i]? = some r ∧ r[j]? = some v

end Verif.Sifted
