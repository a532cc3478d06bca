import Verif.Prelim.Spec
/-!
# Specification: what happens to PRELIM's results when its inputs change in a simple way

The changes are: one performance gets better, all performances are expressed in another unit,
the algorithms (columns) or the instances (rows) are listed in another order.
-/
set_option autoImplicit false

namespace Verif.Prelim

open Verif (Num)

/-- The elements of `l` at the given positions, in the order of the positions. -/
def pick {α : Type} (idx : List Nat) (l : List α) : List α := idx.filterMap fun i => l[i]?

/-- `idx` lists every position below `n` exactly once. -/
def Reorders (n : Nat) (idx : List Nat) : Prop := idx.Perm (List.range n)

/-- Performance `v'` is an improvement of `v`, or `v` was missing and `v'` is not. -/
def Improves (maxPerf : Bool) (v' v : Num) : Prop :=
  v' ≠ .nan ∧ (v = .nan ∨ AtLeastAsGood maxPerf v' v)

/-- The same performances in another unit, `c` of which make one of the old unit. -/
def inUnit (c : ℚ) (row : List Num) : List Num := row.map fun v => v * .fin c

/-- A column transformation that treats every value by one function, chosen by looking at the
values in the column but not at their order. -/
def OrderBlind (tr : List Num → List Num) : Prop :=
  ∃ g : List Num → Num → Num, (∀ l, tr l = l.map (g l)) ∧ ∀ l l', l.Perm l' → g l = g l'

end Verif.Prelim
