import Verif.Pilot.Model
/-!
# PILOT with missing performances

The features are complete, some performances are NaN.  A missing entry of `y` is given by `gap`; the number in
its place in the matrix is never used.
-/
set_option autoImplicit false

namespace Verif.Pilot

variable {K : Type} [Field K] [LinearOrder K] {p n q : Nat}

/-- The entries of `x_bar` (pilot.py:202) that are numbers: all features, and the performances without a gap. -/
def isThere (gap : Fin p → Fin q → Bool) (i : Fin p) (j : Fin (n + q)) : Bool :=
  Fin.addCases (fun _ => true) (fun k => !gap i k) j

/-- `error_function`, pilot.py:530-565: `np.nanmean` leaves the missing values of a row out (563).  There is at
least one feature, so that no row consists of missing values. -/
def errorGaps (xbar : Matrix (Fin p) (Fin (n + q)) K) (gap : Fin p → Fin q → Bool) (alpha : Fin (len n q) → K) : K :=
  let x : Matrix (Fin p) (Fin n) K := fun i j => xbar i (Fin.castAdd q j)
  let approx := (bOf alpha * aOf alpha * x.transpose).transpose
  (∑ i, (∑ j, if isThere gap i j then (xbar i j - approx i j) ^ 2 else 0) /
    ((Finset.univ.filter fun j => isThere (n := n) gap i j = true).card : K)) / (p : K)

/-- The optimiser sees the performances only through the error function, pilot.py:503-511. -/
def Lib.onGaps (lib : Lib K p n q) (x : Matrix (Fin p) (Fin n) K) (y : Matrix (Fin p) (Fin q) K)
    (gap : Fin p → Fin q → Bool) : Lib K p n q :=
  { lib with bfgs := fun _ => lib.bfgs (errorGaps (xBar x y) gap) }

/-- Is there a missing performance?  What `la.eig` tests in `x_bar`, pilot.py:395. -/
def anyGap (gap : Fin p → Fin q → Bool) : Bool := decide (∃ i j, gap i j = true)

/-- `pilot`, pilot.py:175-330, with missing performances: `la.eig` (395) raises a `ValueError` for a matrix with
NaN; in numerical mode only the error function, the error and `r2` (`gapError`, `gapR2`) depend on `y`. -/
def pilotGaps (lib : Lib K p n q) (x : Matrix (Fin p) (Fin n) K) (y : Matrix (Fin p) (Fin q) K)
    (gap : Fin p → Fin q → Bool) (featLabels : List String) (opts : Options K n q) : Except Err (Out K p n q) :=
  if opts.analytic && anyGap gap then .error .valueError
  else pilot (lib.onGaps x y gap) x y featLabels opts

/-- `np.sum((x_bar - x_hat) ** 2)`, pilot.py:270: NaN (`none`) if an entry is NaN. -/
def gapError (gap : Fin p → Fin q → Bool) (o : Out K p n q) : Option K := if anyGap gap then none else some o.error

/-- The diagonal of `np.corrcoef(x_bar, x_hat) ** 2`, pilot.py:271, whose variables are the rows: NaN for a row
with NaN. -/
def gapR2 (gap : Fin p → Fin q → Bool) (o : Out K p n q) : List (Option K) :=
  o.r2.mapIdx fun i v => if ∃ (h : i < p) (j : Fin q), gap ⟨i, h⟩ j = true then none else v

end Verif.Pilot
