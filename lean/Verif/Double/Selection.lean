import Verif.Double.Shares
import Verif.Pythia.Model
/-!
# PYTHIA's recommendations, in double precision
-/
set_option autoImplicit false

namespace Verif.Double

open Verif (Num)
open Verif.Pythia (Err Sel cells column)

/-- `precision_score` as a double, pythia.py:436: the number of rightly predicted instances divided by the number
of instances predicted good; scikit-learn replaces a denominator 0 by 1. -/
def precisionScore (truth pred : List Bool) : Num :=
  let predicted := cells truth pred true true + cells truth pred false true
  share (cells truth pred true true) (if predicted = 0 then 1 else predicted)

/-- `np.argmax` of the rest of a row of doubles: `k` is the position of the first largest value `a` so far,
`i` the position of the next element; pythia.py:707, 720.  NaN does not occur among precisions; a column of
means is NaN only if all are, and then numpy too answers with the first position. -/
def argmaxFrom : Nat → Num → Nat → List Num → Nat
  | k, _, _, [] => k
  | k, a, i, b :: l => if Num.lt a b then argmaxFrom i b (i + 1) l else argmaxFrom k a (i + 1) l

/-- `np.argmax` of a row of doubles, `none` for the `ValueError` on an empty one; pythia.py:707, 720. -/
def argmax : List Num → Option Nat
  | [] => none
  | a :: l => some (argmaxFrom 0 a 1 l)

/-- `np.max` of a row of doubles, pythia.py:718. -/
def maxFrom : Num → List Num → Num
  | a, [] => a
  | a, b :: l => maxFrom (if Num.lt a b then b else a) l

/-- `np.mean(y_bin, axis=0)` as doubles, pythia.py:707. -/
def goodMeans (nalgos : Nat) (yBin : List (List Bool)) : List Num :=
  (List.range nalgos).map fun j => share ((column false yBin j).count true) yBin.length

/-- A row of `y_hat * precision_array[np.newaxis, :]`, pythia.py:716: the truth values count as 0 and 1. -/
def weighted (precision : List Num) (row : List Bool) : List Num :=
  row.zipWith (fun b p => mul (.fin (if b then 1 else 0)) p) precision

/-- `_determine_selections` for one instance and more than one algorithm, pythia.py:715-727. -/
def selectRow (precision : List Num) (default : Nat) (row : List Bool) : Nat × Nat :=
  match weighted precision row with
  | [] => (0, default)
  | a :: l =>
    if Num.le (maxFrom a l) (.fin 0) then (0, default) else (argmaxFrom 0 a 1 l, argmaxFrom 0 a 1 l)

/-- `_determine_selections` with the precisions and means as doubles, pythia.py:705-728. -/
def determineSelections (nalgos : Nat) (precision : List Num) (yHat yBin : List (List Bool)) :
    Except Err (Sel × Sel) :=
  match argmax (goodMeans nalgos yBin) with
  | none => .error .valueError
  | some default =>
    if 1 < nalgos then
      .ok (.flat (yHat.map fun r => (selectRow precision default r).1),
        .flat (yHat.map fun r => (selectRow precision default r).2))
    else
      .ok (.matrix (yHat.map fun r => if r.getD 0 false then 1 else 0),
        .matrix (yHat.map fun r => if r.getD 0 false then 1 else default))

end Verif.Double
