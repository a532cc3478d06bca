import Verif.Double.Model
import Verif.Prelim.Model
/-!
# PRELIM's verdicts in double precision

The performance part of `_prelim` as in `Verif.Prelim`, every operation rounded.
-/
set_option autoImplicit false

namespace Verif.Double

open Verif (Num)
open Verif.Prelim (Opts Row aux extreme argExtreme fixZero firstTrue)

/-- One entry of `y_bin` in double precision; prelim.py:628, 634, 652, 658. -/
def good (o : Opts) (best v : Num) : Bool :=
  match o.maxPerf, o.absPerf with
  | true, true => Num.le o.epsilon v
  | true, false => Num.le (sub 1 (div v best)) o.epsilon
  | false, true => Num.le v o.epsilon
  | false, false => Num.le (sub 1 (div best v)) o.epsilon

/-- `_prelim` (prelim.py:610-664) and `_select_best_algorithms` (405-434) for one instance, in double
precision; maxima, comparisons and counts are exact, the operations of lines 432, 633-634 and 657-658 are
rounded. -/
def rowStep (o : Opts) (row : List Num) : Option Row :=
  match row.map (aux o.maxPerf) with
  | [] => none
  | a :: l =>
    let best0 := extreme o.maxPerf a l
    let p0 := argExtreme o.maxPerf 0 a 1 l + 1
    let best := if o.absPerf then best0 else fixZero best0
    let yIn := if o.absPerf then row else row.map fixZero
    let y := if o.absPerf then row
      else yIn.map fun v => if o.maxPerf then sub 1 (div v best) else sub 1 (div best v)
    let yBin := (a :: l).map (good o best)
    let ties := row.map fun v => v.eq best
    let p := if 1 < ties.count true then firstTrue ties + 1 else p0
    let numGood := yBin.count true
    some { yBin, yBest := best, p, numGood, y, yIn
           beta := Num.lt (mul o.betaThreshold (.fin row.length)) (.fin numGood) }

end Verif.Double
