import Verif.EndToEnd.SpecSvm
/-!
# Specification of what PYTHIA reports in the Model
-/
set_option autoImplicit false

namespace Verif.EndToEnd

open Verif (Num)
open Verif.Pipeline (Name)
open Verif.Runner (Dict)

variable {V W : Type}

/-- The name holds a table of truth values with `n` rows and `m` columns and the entries `b`. -/
def Shown (d : Dict Name (Val V W)) (name : Name) (n m : Nat) (b : Nat → Nat → Bool) : Prop :=
  ∃ l, d name = some (.verdicts l) ∧ l.length = n ∧ (∀ r ∈ l, r.length = m) ∧
    ∀ i < n, ∀ j < m, ∃ r, l[i]? = some r ∧ r[j]? = some (b i j)

/-- The number of the `n` instances on which the verdict about algorithm `j` is `u` and the prediction is
`v`. -/
def tally (n : Nat) (b h : Nat → Nat → Bool) (j : Nat) (u v : Bool) : Nat :=
  ((List.range n).filter fun i => b i j == u && h i j == v).length

/-- `s` is the first of the `m` algorithms that are good on most of the `n` instances. -/
def OftenGood (n m : Nat) (b : Nat → Nat → Bool) (s : Nat) : Prop :=
  s < m ∧ ∀ j < m, ((List.range n).filter fun i => b i j).length ≤ ((List.range n).filter fun i => b i s).length ∧
    (j < s → ((List.range n).filter fun i => b i j).length < ((List.range n).filter fun i => b i s).length)

/-- What PYTHIA reports about `m` algorithms on `n` instances follows from the verdicts `b`, the
predictions `c` of the cross-validation and the predictions `h` of the final models: the counts come from
`c`; the accuracy, the precision and the recall from `g`; the selections from `h`. -/
structure Reports (d : Dict Name (Val V W)) (n m : Nat) (b c g h : Nat → Nat → Bool) : Prop where
  counts : ∃ t, d .cvcmat = some (.table t) ∧ t.ncols = 4 ∧ t.rows.length = m ∧ ∀ j < m, t.rows[j]? =
    some [.fin (tally n b c j false false), .fin (tally n b c j false true),
      .fin (tally n b c j true false), .fin (tally n b c j true true)]
  accuracy : ∃ l, d .accuracy = some (.numbers l) ∧ l.length = m ∧
    ∀ j < m, l[j]? = some (.fin (accuracyOf n b g j))
  precision : ∃ l, d .precision = some (.numbers l) ∧ l.length = m ∧
    ∀ j < m, l[j]? = some (.fin (precisionOf n b g j))
  recall : ∃ l, d .recall = some (.numbers l) ∧ l.length = m ∧
    ∀ j < m, l[j]? = some (.fin (recallOf n b g j))
  selection0 : ∃ l, d .selection0 = some (.counts l) ∧ l.length = n ∧ ∀ i < n, ∃ s, l[i]? = some s ∧
    (Advised n m b h i s ∨ NoAdvice n m b h i ∧ s = 0)
  selection1 : ∃ l, d .selection1 = some (.counts l) ∧ l.length = n ∧ ∀ i < n, ∃ s, l[i]? = some s ∧
    (Advised n m b h i s ∨ NoAdvice n m b h i ∧ OftenGood n m b s)

end Verif.EndToEnd
