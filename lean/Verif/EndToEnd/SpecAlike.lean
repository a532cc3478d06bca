import Verif.EndToEnd.SpecRecompute
import Verif.EndToEnd.SpecLate
/-!
# Specification of instances that are alike (C214)
-/
set_option autoImplicit false

namespace Verif.EndToEnd

open Verif (Num)
open Verif.Preprocessing (Mat)

variable {V W : Type}

/-- A trained model is a function of the coordinates: instances at the same place get the same prediction and the
same probability. -/
def Places (fitted : Mat Num → Mat Num → List (List Bool) → Nat → Except Pythia.Err Pythia.SvmRes) : Prop :=
  ∀ z y b j res, fitted z y b j = .ok res → ∀ i k : Nat, i < b.length → k < b.length →
    (∀ r < 2, ∃ v, At z.rows i r v ∧ At z.rows k r v) →
    res.yHat[i]? = res.yHat[k]? ∧ res.pHat[i]? = res.pHat[k]?

/-- Rows `i` and `k` of the table have the same value in each of the columns. -/
def SameCells (num : V → Num) (t : Metadata.Table V) (names : List String) (i k : Nat) : Prop :=
  ∀ a ∈ names, ∀ v w, Cell t a i v → Cell t a k w → num v = num w

end Verif.EndToEnd
