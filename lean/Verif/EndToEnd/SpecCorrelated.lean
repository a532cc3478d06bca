import Verif.EndToEnd.SpecShape
/-!
# Specification of the points that an output holds
-/
set_option autoImplicit false

namespace Verif.EndToEnd

open Verif (Num)
open Verif.Pipeline (Name)
open Verif.Runner (Dict)

variable {V W : Type}

/-- The name holds an array with these points of the plane as rows. -/
def HoldsPoints (d : Dict Name (Val V W)) (name : Name) (pts : List (Fin 2 → ℚ)) : Prop :=
  ∃ t, d name = some (.table t) ∧ t.rows = pts.map fun p => [.fin (p 0), .fin (p 1)]

end Verif.EndToEnd
