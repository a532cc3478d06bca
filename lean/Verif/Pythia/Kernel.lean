import Mathlib.Analysis.SpecialFunctions.Exp
import Verif.Pythia.Znorm
/-!
# What PYTHIA's support vector machines see of the instance space

A support vector machine uses the coordinates of the instances only through its kernel, the numbers
`K(u, v)` for two instances; this is the part of `SVC` modelled here.  The instance space is a list of columns
over the reals.
-/
set_option autoImplicit false

namespace Verif.Pythia

/-- The normalised coordinates given to the classifiers, by columns, pythia.py:347 (`_compute_znorm`,
649): `none` when a column has no variation (NaN, which `SVC.fit` rejects, pythia.py:593). -/
noncomputable def normalised : List (List ℝ) → Option (List (List ℝ))
  | [] => some []
  | c :: cs => (zscore c).bind fun z => (normalised cs).map fun zs => z :: zs

/-- One instance, a row of `z`, pythia.py:593. -/
def point (cols : List (List ℝ)) (i : Nat) : List ℝ := cols.map fun c => c.getD i 0

/-- The kernel of `SVC(kernel=…, degree=2, coef0=1)` with the hyper-parameter `gamma`, pythia.py:562-568. -/
noncomputable def kernel (isPoly : Bool) (gamma : ℝ) (u v : List ℝ) : ℝ :=
  if isPoly then (gamma * (List.zipWith (· * ·) u v).sum + 1) ^ 2
  else Real.exp (-gamma * (List.zipWith (fun a b => (a - b) ^ 2) u v).sum)

/-- The kernel of every two instances of the normalised instance space, pythia.py:347, 562-603. -/
noncomputable def gram (isPoly : Bool) (gamma : ℝ) (cols : List (List ℝ)) : Option (Nat → Nat → ℝ) :=
  (normalised cols).map fun zs i j => kernel isPoly gamma (point zs i) (point zs j)

end Verif.Pythia
