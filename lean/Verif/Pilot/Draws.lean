import Verif.Pilot.Model
/-!
# The random starting points of PILOT

`numpy.random.Generator.random` with a shape fills the array with consecutive draws, row after row
(C order).  The generator is seeded with 0 in every call, so the draws are one fixed sequence.
-/
set_option autoImplicit false

namespace Verif.Pilot

variable {K : Type} [Field K] [LinearOrder K] [IsStrictOrderedRing K] {n q : Nat}

/-- `x0 = 2 * rng.random((2 * m + 2 * n, options.n_tries)) - 1`, pilot.py:243-244: the entry in row `r`
and column `c` comes from draw number `r * n_tries + c`; the starting points are the columns,
pilot.py:502. -/
def randomStarts (draws : Nat → K) (nTries : Nat) : List (Fin (len n q) → K) :=
  (List.range nTries).map fun c r => 2 * draws (r * nTries + c) - 1

end Verif.Pilot
