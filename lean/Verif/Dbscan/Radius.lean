import Verif.Dbscan.Model
import Mathlib.Analysis.SpecialFunctions.Pow.Real
import Mathlib.Analysis.SpecialFunctions.Gamma.Basic
import Mathlib.Analysis.Real.Pi.Bounds
/-!
# Model of the neighbourhood radius (`dist`, `epsilon`, `run_dbscan` in
`instancespace/stages/trace.py`)

The rows of the data are `x 0, ..., x (m - 1)`, each with `n` real entries; arithmetic is exact.
-/
set_option autoImplicit false

namespace Verif.Dbscan

/-- The Euclidean distance between two rows of a matrix with real entries, as `TraceStage.dist`
computes it (trace.py:878-884, at least two columns; exact arithmetic). -/
noncomputable def dist {n : Nat} (x : Nat → Fin n → ℝ) (i j : Nat) : ℝ :=
  Real.sqrt (∑ c, (x j c - x i c) ^ 2)

open Classical in
/-- `d <= eps`, trace.py:918, 936. -/
noncomputable def nearReal {n : Nat} (x : Nat → Fin n → ℝ) (eps : ℝ) (i j : Nat) : Bool :=
  decide (dist x i j ≤ eps)

/-- `np.max(x, axis=0) - np.min(x, axis=0)` in column `c`, trace.py:854 (for at least one row). -/
noncomputable def spread {n : Nat} (x : Nat → Fin n → ℝ) (m : Nat) (c : Fin n) : ℝ :=
  (⨆ i : Fin m, x i c) - ⨅ i : Fin m, x i c

/-- `epsilon`, trace.py:837-857. -/
noncomputable def epsilon {n : Nat} (x : Nat → Fin n → ℝ) (m k : Nat) : ℝ :=
  ((∏ c, spread x m c) * k * Real.Gamma (0.5 * n + 1) / (m * Real.sqrt (Real.pi ^ n))) ^
    (1.0 / (n : ℝ))

/-- `nn`, trace.py:831; `count` is `np.sum(y_bin)`. -/
def minPts (count : Nat) : Nat := max (min ((count + 19) / 20) 50) 3

/-- `run_dbscan`, trace.py:813-834. -/
noncomputable def runDbscan {n : Nat} (x : Nat → Fin n → ℝ) (m count : Nat) : List Int :=
  dbscan (nearReal x (epsilon x m (minPts count))) m (minPts count)

end Verif.Dbscan
