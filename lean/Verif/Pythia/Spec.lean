import Verif.Pythia.Model
/-!
# Specification vocabulary for PYTHIA
-/
set_option autoImplicit false

namespace Verif.Pythia

open Verif (Num)

/-- Algorithm `j` is predicted good on the instance with predictions `row`, by a model of
precision `p`. -/
def PredictedGood (precision : List ℚ) (row : List Bool) (j : Nat) (p : ℚ) : Prop :=
  row[j]? = some true ∧ precision[j]? = some p

/-- Some algorithm is predicted good with positive precision. -/
def AnyGood (precision : List ℚ) (row : List Bool) : Prop :=
  ∃ j p, PredictedGood precision row j p ∧ 0 < p

/-- `s` is the first of the algorithms predicted good with the highest precision, and this
precision is positive. -/
def Recommended (precision : List ℚ) (row : List Bool) (s : Nat) : Prop :=
  ∃ p, PredictedGood precision row s p ∧ 0 < p ∧
    ∀ j q, PredictedGood precision row j q → q ≤ p ∧ (j < s → q < p)

/-- The number of instances on which algorithm `j` is good. -/
def numGood (yBin : List (List Bool)) (j : Nat) : Nat :=
  (yBin.filter fun r => r[j]? = some true).length

/-- `d` is the first of the algorithms good on most instances. -/
def MostOftenGood (nalgos : Nat) (yBin : List (List Bool)) (d : Nat) : Prop :=
  d < nalgos ∧ ∀ j < nalgos, numGood yBin j ≤ numGood yBin d ∧ (j < d → numGood yBin j < numGood yBin d)

/-- The share of the given instances for which `good` holds; 0 when there are none. -/
def share {α : Type} (l : List α) (good : α → Bool) : ℚ := (l.filter good).length / l.length

/-- The share of correct predictions. -/
def specAccuracy (truth pred : List Bool) : ℚ := share (truth.zip pred) fun q => q.1 == q.2

/-- Among the instances predicted good, the share that is good. -/
def specPrecision (truth pred : List Bool) : ℚ :=
  share ((truth.zip pred).filter fun q => q.2) fun q => q.1

/-- Among the good instances, the share predicted good. -/
def specRecall (truth pred : List Bool) : ℚ :=
  share ((truth.zip pred).filter fun q => q.1) fun q => q.2

/-- Column `j` of a matrix of truth values with `nalgos` columns. -/
def goodColumn (yBin : List (List Bool)) (j : Nat) : List Bool :=
  yBin.map fun r => decide (r[j]? = some true)

/-- Every row has `n` entries. -/
def Rect {α : Type} (m : List (List α)) (n : Nat) : Prop := ∀ r ∈ m, r.length = n

/-- The predictions of a model have one entry per instance (as scikit-learn's do). -/
def Sized (N : Nat) (res : SvmRes) : Prop :=
  res.yHat.length = N ∧ res.ySub.length = N ∧ res.pSub.length = N ∧ res.pHat.length = N

end Verif.Pythia
