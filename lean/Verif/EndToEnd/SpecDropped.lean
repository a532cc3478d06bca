import Verif.EndToEnd.SpecPart
import Verif.Prelim.PropsAlternatives
/-!
# Specification of builds without one of the algorithms
-/
set_option autoImplicit false

namespace Verif.EndToEnd

open Verif (Num)
open Verif.Pipeline (Name)
open Verif.Metadata (Meta)
open Verif.Runner (Dict)

variable {V W : Type}

/-- The metadata without the algorithm at position `k`. -/
def withoutAlgorithm (k : Nat) (m : Meta V) : Meta V :=
  { m with algorithmNames := m.algorithmNames.eraseIdx k, algorithms := m.algorithms.map (·.eraseIdx k) }

/-- On every instance some other algorithm is at least as good as the one at position `k`. -/
def NowhereBetter (num : V → Num) (maxPerf : Bool) (m : Meta V) (k : Nat) : Prop :=
  ∀ r ∈ m.algorithms, ∀ v, r[k]? = some v → ∃ c ∈ r.eraseIdx k, Prelim.AtLeastAsGood maxPerf (num c) (num v)

/-- On every instance the best of the other algorithms, `b`, is better than the one at position `k`. -/
def NowhereBest (num : V → Num) (maxPerf : Bool) (m : Meta V) (k : Nat) : Prop :=
  ∀ r ∈ m.algorithms, ∀ v, r[k]? = some v → ∃ b, Prelim.IsBest maxPerf ((r.eraseIdx k).map num) b ∧
    b ≠ Prelim.worst maxPerf ∧ num v ≠ b ∧ Prelim.AtLeastAsGood maxPerf b (num v)

/-- The verdicts on the other algorithms and the best performances are the same in the outputs `d`, with the
algorithm at position `k`, and `d'`, without it. -/
def SameVerdicts (k : Nat) (d d' : Dict Name (Val V W)) : Prop :=
  (∃ B B', d .y_bin = some (.verdicts B) ∧ d' .y_bin = some (.verdicts B') ∧
    List.Forall₂ (fun r r' => ∃ g, Prelim.WithExtra k g r' r) B B') ∧
  ∃ y, d .y_best = some (.numbers y) ∧ d' .y_best = some (.numbers y)

/-- The best algorithm of every instance is the same; its number is shifted if it comes after position `k`. -/
def BestUnmoved (k : Nat) (d d' : Dict Name (Val V W)) : Prop :=
  ∃ p, d' .p = some (.counts p) ∧ d .p = some (.counts (p.map (Prelim.shifted k)))

end Verif.EndToEnd
