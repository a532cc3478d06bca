import Verif.EndToEnd.SpecPart
import Verif.Prelim.SpecInfinite
/-!
# Specification of builds with an infinitely bad performance
-/
set_option autoImplicit false

namespace Verif.EndToEnd

open Verif (Num)
open Verif.Metadata (Meta)

variable {V : Type}

/-- The metadata with other performances. -/
def withPerformances (t : List (List V)) (m : Meta V) : Meta V := { m with algorithms := t }

/-- Two tables of performances of the same shape, with −∞ in the same places. -/
def LowestAlike (num : V → Num) (t t' : List (List V)) : Prop :=
  List.Forall₂ (List.Forall₂ fun v v' => num v = .ninf ↔ num v' = .ninf) t t'

end Verif.EndToEnd
