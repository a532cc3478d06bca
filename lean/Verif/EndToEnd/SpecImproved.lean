import Verif.EndToEnd.SpecPart
import Verif.Prelim.SpecMeta
/-!
# Specification of builds with improved performances of one algorithm (C233)
-/
set_option autoImplicit false

namespace Verif.EndToEnd

open Verif (Num)
open Verif.Pipeline (Name)
open Verif.Metadata (Meta)
open Verif.Runner (Dict)

variable {V W : Type}

/-- `m'` is `m` with other performances of the algorithm at position `k`, none of them worse; they may be better on
any number of instances. -/
def ImprovedAt (num : V → Num) (maxPerf : Bool) (k : Nat) (m m' : Meta V) : Prop :=
  ∃ A, m' = { m with algorithms := A } ∧
    List.Forall₂ (fun r r' => ∃ v v', r[k]? = some v ∧ r' = r.set k v' ∧
      Prelim.Improves maxPerf (num v') (num v)) m.algorithms A

/-- All performances are positive numbers. -/
def PositivePerformances (num : V → Num) (m : Meta V) : Prop :=
  ∀ r ∈ m.algorithms, ∀ v ∈ r, ∃ q : ℚ, num v = .fin q ∧ 0 < q

/-- The algorithm at position `k` is good in `d'` wherever it is in `d`, and no other algorithm is good in `d'` where
it is not in `d`. -/
def GainsNoLess (k : Nat) (d d' : Dict Name (Val V W)) : Prop :=
  ∃ B B', d .y_bin = some (.verdicts B) ∧ d' .y_bin = some (.verdicts B') ∧
    List.Forall₂ (fun r r' => (r[k]? = some true → r'[k]? = some true) ∧
      ∀ j, j ≠ k → r'[j]? = some true → r[j]? = some true) B B'

/-- The verdicts on all algorithms but the one at position `k` are the same. -/
def OthersKeepVerdicts (k : Nat) (d d' : Dict Name (Val V W)) : Prop :=
  ∃ B B', d .y_bin = some (.verdicts B) ∧ d' .y_bin = some (.verdicts B') ∧
    List.Forall₂ (fun r r' => ∀ j, j ≠ k → (r'[j]? = some true ↔ r[j]? = some true)) B B'

/-- The instances, their sources and features, and the algorithms are the same. -/
def SameRecords (d d' : Dict Name (Val V W)) : Prop :=
  ∀ n ∈ [Name.instlabels, .algo_labels, .s, .x_raw], d' n = d n

end Verif.EndToEnd
