import Verif.Num
import Mathlib.Analysis.SpecialFunctions.Pow.Real
/-!
# Model of `_normalise` (`instancespace/stages/prelim.py:470-581`) with its power transformation

Columns without missing or infinite entries, over the real numbers; rounding is not modelled.  `none`
stands for NaN.  The exponent found by `optimize.fmin` is an arbitrary function `lam` of the column.
`Verif.Prelim.normX` and `normY` model the same code with missing entries and an arbitrary
transformation.
-/
set_option autoImplicit false

namespace Verif.Prelim

/-- `stats.boxcox(data, lmbda)` on one positive number, prelim.py:531. -/
noncomputable def boxcox (lmbda w : ℝ) : ℝ :=
  if lmbda = 0 then Real.log w else (w ^ lmbda - 1) / lmbda

/-- `np.mean`, prelim.py:548, 565. -/
noncomputable def meanR (l : List ℝ) : ℝ := l.sum / l.length

/-- `np.std(.., ddof=1)`, prelim.py:549, 566 (of at least two values). -/
noncomputable def stdR (l : List ℝ) : ℝ :=
  Real.sqrt ((l.map fun v => (v - meanR l) ^ 2).sum / (l.length - 1))

open Classical in
/-- `stats.zscore(.., ddof=1)`, prelim.py:550, 567; scipy returns NaN for a constant column. -/
noncomputable def zscore (l : List ℝ) : List (Option ℝ) :=
  if ∃ a, ∀ v ∈ l, v = a then l.map fun _ => none
  else l.map fun v => some ((v - meanR l) / stdR l)

/-- What `_normalise` returns for one column, prelim.py:570-581. -/
structure Fitted where
  min : ℝ
  lambda : ℝ
  mu : ℝ
  sigma : ℝ
  values : List (Option ℝ)

/-- The body of the loops over the columns, prelim.py:544-551 and 561-568, with the shift of 538-539
and 553-555; `boxcox_fmin` is prelim.py:490-533. -/
noncomputable def fitCol (lam : List ℝ → ℝ) (m shift : ℝ) (col : List ℝ) : Fitted :=
  let aux := col.map fun v => v - m + shift
  let tr := aux.map (boxcox (lam aux))
  ⟨m, lam aux, meanR tr, stdR tr, zscore tr⟩

/-- The smallest entry: `np.min`, prelim.py:538, 553 (raises for no entries). -/
noncomputable def minR (l : List ℝ) : ℝ := l.min?.getD 0

/-- The features: prelim.py:538-551. -/
noncomputable def fitX (lam : List ℝ → ℝ) (cols : List (List ℝ)) : List Fitted :=
  cols.map fun c => fitCol lam (minR c) 1 c

/-- The performances: prelim.py:553-568. -/
noncomputable def fitY (lam : List ℝ → ℝ) (cols : List (List ℝ)) : List Fitted :=
  cols.map fun c => fitCol lam (minR cols.flatten) (Num.eps : ℚ) c

end Verif.Prelim
