import Verif.Wiring.Model
/-!
# What it means that values keep their names
-/
set_option autoImplicit false

namespace Verif.Wiring

/-- Variables listed with their values; all others are unbound. -/
def frameOf {V : Type} (l : List (String × Option V)) : Frame V := fun q => (l.lookup q).join

/-- The listed names have the same values in `f` and in `g`. -/
def Same {V : Type} (f g : Frame V) (names : List String) : Prop := ∀ n ∈ names, f n = g n

/-- The first name of each pair has in `f` the value the second one has in `g`. -/
def Renamed {V : Type} (f g : Frame V) (names : List (String × String)) : Prop :=
  ∀ p ∈ names, f p.1 = g p.2

end Verif.Wiring
