import Verif.EndToEnd.Footprints
import Verif.Trace.PropsPurity
/-!
# Specification of builds with a stricter purity
-/
set_option autoImplicit false

namespace Verif.EndToEnd

open Verif.Pipeline (Name)
open Verif.Runner (Dict)

variable {V G : Type}

/-- The footprints in `d'` are parts of those in `d`, with no more area and no more instances, algorithm by algorithm,
and the same ones are missing; the footprint of the space is the same. -/
def FootprintsShrink (sub : G → G → Prop) (d d' : Dict Name (Val V (Kept G))) : Prop :=
  (∃ space, d .space = some (.other (.footprint space)) ∧ d' .space = some (.other (.footprint space))) ∧
  (∃ f f', d .hard = some (.other (.footprint f)) ∧ d' .hard = some (.other (.footprint f')) ∧
    Trace.Smaller sub f' f) ∧
  (∃ l l', d .good = some (.other (.footprints l)) ∧ d' .good = some (.other (.footprints l')) ∧
    List.Forall₂ (Trace.Smaller sub) l' l) ∧
  ∃ l l', d .best = some (.other (.footprints l)) ∧ d' .best = some (.other (.footprints l')) ∧
    List.Forall₂ (Trace.Smaller sub) l' l

end Verif.EndToEnd
