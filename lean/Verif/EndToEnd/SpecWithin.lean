import Verif.EndToEnd.SpecTrace
import Verif.EndToEnd.Footprints
import Verif.Trace.SpecWithin
/-!
# Specification of the footprints and the boundary in the Model
-/
set_option autoImplicit false

namespace Verif.EndToEnd

open Verif (Num)
open Verif.Pipeline (Name)
open Verif.Runner (Dict)

variable {V G : Type}

/-- The points of the plane that are rows of a table. -/
def rowPoints (m : Preprocessing.Mat Num) : Set (Fin 2 → ℚ) := {p | [.fin (p 0), .fin (p 1)] ∈ m.rows}

/-- The points of the plane in the rows of a table at which the mask is true. -/
def markedPoints (m : Preprocessing.Mat Num) (mark : Nat → Prop) : Set (Fin 2 → ℚ) :=
  {p | ∃ i, m.rows[i]? = some [.fin (p 0), .fin (p 1)] ∧ mark i}

/-- `g` is one of the footprints of the Model: that of the space, that of the instances that are not easy, or
the good or the best footprint of an algorithm. -/
def IsFootprint (d : Dict Name (Val V (Kept G))) (g : G) : Prop :=
  ∃ f : Trace.Footprint G ℚ, f.polygon = some g ∧
    (d .space = some (.other (.footprint f)) ∨ d .hard = some (.other (.footprint f)) ∨
      (∃ l, d .good = some (.other (.footprints l)) ∧ f ∈ l) ∨
      ∃ l, d .best = some (.other (.footprints l)) ∧ f ∈ l)

end Verif.EndToEnd
