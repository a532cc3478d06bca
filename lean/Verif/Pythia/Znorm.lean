import Mathlib.Analysis.SpecialFunctions.Pow.Real
/-!
# PYTHIA's normalisation and its hyper-parameter candidates, over the reals

A column of coordinates is a list of reals.
-/
set_option autoImplicit false

namespace Verif.Pythia

/-- `np.mean(z, axis=0)` of one column, pythia.py:650. -/
noncomputable def mean (l : List ℝ) : ℝ := l.sum / l.length

/-- `np.std(z, ddof=1, axis=0)` of one column, pythia.py:651. -/
noncomputable def std (l : List ℝ) : ℝ :=
  Real.sqrt ((l.map fun v => (v - mean l) ^ 2).sum / (l.length - 1))

/-- `stats.zscore(z, ddof=1)` of one column, pythia.py:649.  A column without variation becomes NaN
in scipy; here it is `none`. -/
noncomputable def zscore (l : List ℝ) : Option (List ℝ) :=
  open Classical in if std l = 0 then none else some (l.map fun v => (v - mean l) / std l)

/-- `_compute_znorm` of one column, pythia.py:649-652: mean and deviation are computed from the
normalised column. -/
noncomputable def znorm (l : List ℝ) : Option (ℝ × ℝ × List ℝ) :=
  (zscore l).map fun z => (mean z, std z, z)

/-- One list of candidates made by `_generate_params`, pythia.py:744-753; `samples` is a column of
the latin hypercube sample. -/
noncomputable def generateParams (samples : List ℝ) : List ℝ :=
  samples.map fun u => (2 : ℝ) ^ ((4 - (-10 : ℝ)) * u + -10)

end Verif.Pythia
