import Verif.Num
import Mathlib.Data.Int.Log
import Mathlib.Data.Rat.Floor
/-!
# Double precision

IEEE 754 binary64 with rounding to the nearest double, ties to even, gradual underflow and overflow to an
infinity; this is the arithmetic of numpy's `double` arrays.  As in `Verif.Num`, the sign of zero is not
modelled.
-/
set_option autoImplicit false

namespace Verif.Double

open Verif (Num)

/-- The nearest integer, halves go to the even one (IEEE 754 roundTiesToEven, the mode of numpy's `double`
arithmetic, e.g. prelim.py:634). -/
def nearest (q : ℚ) : ℤ :=
  if q - ⌊q⌋ < 1 / 2 then ⌊q⌋
  else if 1 / 2 < q - ⌊q⌋ then ⌊q⌋ + 1
  else if ⌊q⌋ % 2 = 0 then ⌊q⌋ else ⌊q⌋ + 1

/-- The exponent of a number: `2 ^ e ≤ |q| < 2 ^ (e + 1)`, at least that of the smallest normal number
(format of numpy's `double`, e.g. prelim.py:634). -/
def expo (q : ℚ) : ℤ := max (Int.log 2 |q|) (-1022)

/-- The distance of the doubles around a number (format of numpy's `double`, e.g. prelim.py:634). -/
def ulp (q : ℚ) : ℚ := 2 ^ (expo q - 52)

/-- A number rounded to 53 significant bits, or to the least positive double (e.g. prelim.py:634). -/
def toBits (q : ℚ) : ℚ := nearest (q / ulp q) * ulp q

/-- The largest exponent is 1023: from here on a number overflows (e.g. prelim.py:634). -/
def limit : ℚ := 2 ^ 1024

/-- The double nearest to a number (e.g. prelim.py:634). -/
def toDouble (q : ℚ) : Num :=
  if limit ≤ toBits q then .pinf else if toBits q ≤ -limit then .ninf else .fin (toBits q)

/-- The rounded result of an operation; NaN and infinities are exact (e.g. prelim.py:634). -/
def rounded : Num → Num
  | .fin q => toDouble q
  | v => v

/-- `a + b` on doubles, e.g. prelim.py:452. -/
def add (a b : Num) : Num := rounded (a + b)
/-- `a - b` on doubles, e.g. prelim.py:634. -/
def sub (a b : Num) : Num := rounded (a - b)
/-- `a * b` on doubles, e.g. prelim.py:432. -/
def mul (a b : Num) : Num := rounded (a * b)
/-- `a / b` on doubles, e.g. prelim.py:634. -/
def div (a b : Num) : Num := rounded (a / b)

end Verif.Double
