import Verif.EndToEnd.SpecTally
import Mathlib.Order.Monotone.Defs
/-!
# Specification of the row of the oracle in PYTHIA's table
-/
set_option autoImplicit false

namespace Verif.EndToEnd

open Verif (Num)
open Verif.Pipeline (Name)
open Verif.Runner (Dict)

variable {V W : Type}

/-- In PYTHIA's table row `j` of the named column holds `e`. -/
def Holds (d : Dict Name (Val V W)) (name : String) (j : Nat) (e : Entry) : Prop :=
  ∃ f l, d .pythia_summary = some (.frame f) ∧ f.lookup name = some l ∧ l[j]? = some e

/-- `a` is not a better performance than `b`. -/
def NotBetter (maxPerf : Bool) (a b : ℚ) : Prop := if maxPerf then a ≤ b else b ≤ a

/-- Every performance is known and finite, and none lies between zero and the number that takes the place of
zero when performances are compared with the best one. -/
def Measured (relative : Bool) (rows : List (List Num)) : Prop :=
  ∀ r ∈ rows, ∀ v ∈ r, ∃ q : ℚ, v = .fin q ∧ (relative = true → ¬ (0 < q ∧ q < Num.eps))

/-- `round` rounds numbers: it keeps their order, and rounded numbers stay as they are. -/
def Rounding (round : Num → Num) : Prop :=
  ∃ r : ℚ → ℚ, Monotone r ∧ (∀ q, r (r q) = r q) ∧ ∀ q, round (.fin q) = .fin (r q)

end Verif.EndToEnd
