import Verif.Double.Model
/-!
# Shares compared with thresholds, in double precision
-/
set_option autoImplicit false

namespace Verif.Double

open Verif (Num)

/-- A count divided by a count: `np.mean` of booleans (preprocessing.py:346), `good_elements / elements`
(trace.py:751), `nuinst / ninst` (preprocessing.py:360).  The counts are converted exactly. -/
def share (count total : Nat) : Num := div (.fin count) (.fin total)

/-- `np.mean(np.isnan(new_x), axis=0) >= 0.20` for one feature, preprocessing.py:345-346; the literal stands
for the nearest double. -/
def tooSparse (missing ninst : Nat) : Bool := Num.le (toDouble (1 / 5)) (share missing ninst)

/-- `nuinst / ninst < 0.5`, preprocessing.py:359-360. -/
def manyRepeated (nuinst ninst : Nat) : Bool := Num.lt (share nuinst ninst) (toDouble (1 / 2))

/-- `elements > 0 and (good_elements / elements) < self.opts.purity`, trace.py:751. -/
def impure (purity : Num) (good elements : Nat) : Bool :=
  decide (0 < elements) && Num.lt (share good elements) purity

end Verif.Double
