import Verif.Prelim.PropsData
/-!
# Specification of normalising tables with infinite values
-/
set_option autoImplicit false

namespace Verif.Prelim

open Verif (Num)

/-- Two columns have the same length, and −∞ in the same rows. -/
def SameLowest (c c' : List Num) : Prop := List.Forall₂ (fun v v' => v = .ninf ↔ v' = .ninf) c c'

/-- No value of the column is missing. -/
def Present (c : List Num) : Prop := ∀ v ∈ c, v ≠ .nan

/-- The property, for a column of features: normalising leaves no value missing that was not. -/
def KeepsPresent (tr : List Num → List Num) : Prop :=
  ∀ o junk cols, o.norm = true → o.bound = false → (∀ c ∈ cols, Present c) →
    ∀ c ∈ outX o junk tr cols, Present c

end Verif.Prelim
