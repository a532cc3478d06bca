import Verif.Double.Distance
/-!
# The clustering of TRACE, in double precision
-/
set_option autoImplicit false

namespace Verif.Double

open Verif (Num)

/-- `dist(ob, x)[j] <= eps` for the points `i` and `j` of the instance space with the two coordinates `pts`,
trace.py:868-885, 917-918, 933-934: `np.sqrt(np.sum((x - i) ** 2, axis=1))`.  The sum of two squares is rounded
once; adding the first square to 0 is exact. -/
def nearPoints (pts : Nat → ℚ × ℚ) (eps : Num) (i j : Nat) : Bool :=
  Num.le (dist [.fin (pts j).1, .fin (pts j).2] [.fin (pts i).1, .fin (pts i).2]) eps

end Verif.Double
