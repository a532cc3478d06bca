import Verif.EndToEnd.SpecTally
/-!
# What it means that two algorithms have the same performances (C217)
-/
set_option autoImplicit false

namespace Verif.EndToEnd

open Verif (Num)
open Verif.Metadata (Table)

/-- The metadata table has the same performances in the columns `a` and `b`, instance for instance; a
performance may be missing in both. -/
def SamePerformances {V : Type} (num : V → Num) (t : Table V) (a b : String) : Prop :=
  ∀ (i : Nat) (v w : V), Cell t a i v → Cell t b i w → num v = num w

/-- Columns `j` and `l` of a matrix have the same entries. -/
def EqualColumns {α : Type} (m : List (List α)) (j l : Nat) : Prop :=
  ∀ r ∈ m, ∃ v, r[j]? = some v ∧ r[l]? = some v

/-- Training is about the column of the algorithm alone: two algorithms with the same performances and the
same verdicts get the same model. -/
def OwnColumn {M R : Type} (fitted : M → Preprocessing.Mat Num → List (List Bool) → Nat → R) : Prop :=
  ∀ (z : M) (y : Preprocessing.Mat Num) (b : List (List Bool)) (j l : Nat),
    EqualColumns y.rows j l → EqualColumns b j l → fitted z y b j = fitted z y b l

end Verif.EndToEnd
