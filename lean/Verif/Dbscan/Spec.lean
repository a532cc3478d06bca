import Mathlib.Logic.Relation
import Mathlib.Data.Finset.Card
import Mathlib.Data.Finset.Range
/-!
# Specification vocabulary for the clustering
-/
set_option autoImplicit false

namespace Verif.Dbscan

/-- Points `p` and `q` are linked by a chain of steps between points that are near each other. -/
def Linked (near : Nat → Nat → Bool) (m : Nat) : Nat → Nat → Prop :=
  Relation.ReflTransGen fun a b => b < m ∧ near a b = true

/-- At least `k + 1` points are near `q`. -/
def Core (near : Nat → Nat → Bool) (m k q : Nat) : Prop :=
  k + 1 ≤ ((Finset.range m).filter fun r => near q r = true).card

/-- The group of `p` contains a core point. -/
def Clustered (near : Nat → Nat → Bool) (m k p : Nat) : Prop :=
  ∃ q, Linked near m p q ∧ Core near m k q

end Verif.Dbscan
