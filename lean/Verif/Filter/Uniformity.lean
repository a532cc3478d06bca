import Verif.Filter.Model
import Mathlib.Analysis.Real.Sqrt
/-!
# Model of `compute_uniformity`, `instancespace/utils/filter.py`

Over the real numbers; rounding is not modelled.  `none` stands for NaN.
-/
set_option autoImplicit false

namespace Verif.Filter

/-- The Euclidean distance of two rows of numbers, as computed by `cdist`, filter.py:72-73, and
`pdist`, filter.py:116. -/
noncomputable def euclid (a b : List ℝ) : ℝ :=
  Real.sqrt ((List.zipWith (fun u v => (u - v) ^ 2) a b).sum)

/-- Entry `j` of `nearest`, filter.py:116-118: the least distance from another row.  The entry is NaN
when there is no other row. -/
noncomputable def nearest (rows : List (List ℝ)) (j : Nat) : Option ℝ :=
  (((List.range rows.length).filter fun i => i ≠ j).map fun i =>
    euclid (rows.getD i []) (rows.getD j [])).min?

/-- `np.mean`, filter.py:119. -/
noncomputable def mean (l : List ℝ) : ℝ := l.sum / l.length

/-- `np.std(.., ddof=1)`, filter.py:119. -/
noncomputable def std (l : List ℝ) : ℝ :=
  Real.sqrt ((l.map fun v => (v - mean l) ^ 2).sum / (l.length - 1))

/-- The quotient and the difference of filter.py:119 for values that are not NaN; the quotient `0 / 0` is
NaN (a positive number divided by zero does not occur since distances are not negative). -/
noncomputable def score (l : List ℝ) : Option ℝ :=
  if mean l = 0 then none else some (1 - std l / mean l)

/-- `compute_uniformity`, filter.py:99-119, of the kept rows.  With fewer than two rows `nearest` holds a
NaN (`squareform` of an empty vector is a 1 × 1 matrix), and so the result is NaN. -/
noncomputable def uniformity (rows : List (List ℝ)) : Option ℝ :=
  if rows.length < 2 then none
  else score ((List.range rows.length).filterMap (nearest rows))

end Verif.Filter
