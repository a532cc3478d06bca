import Verif.Double.Model
import Verif.Prelim.Model
import Verif.Export.Model
/-!
# Bounding, shifting and colouring in double precision

`_bound`, the first lines of `_normalise` and the colour scales as in `Verif.Prelim` and `Verif.Export`,
every operation rounded.
-/
set_option autoImplicit false

namespace Verif.Double

open Verif (Num)
open Verif.Prelim (ofBool)

/-- Entry `i` of a sorted column, e.g. prelim.py:448. -/
def at' (sorted : List ℚ) (i : Nat) : Num := .fin (sorted.getD i 0)

/-- `np.median` of a finite column given its sorted values: the value in the middle, or the mean of the two
values in the middle; prelim.py:448, 677. -/
def median (sorted : List ℚ) : Num :=
  if sorted.length % 2 = 1 then at' sorted (sorted.length / 2)
  else div (add (at' sorted (sorted.length / 2 - 1)) (at' sorted (sorted.length / 2))) (.fin 2)

/-- The percentile `k/4` with `interpolation="midpoint"`, prelim.py:450, 678.  numpy interpolates between the
values `a` and `b` around the position: `a + (b - a) * 0` at a whole position, else
`b - (b - a) * (1 - 0.5)`. -/
def quartile (k : Nat) (sorted : List ℚ) : Num :=
  let i := k * (sorted.length - 1) / 4
  let a := at' sorted i
  let b := at' sorted (min (i + 1) (sorted.length - 1))
  if k * (sorted.length - 1) % 4 = 0 then add a (mul (sub b a) (.fin 0))
  else sub b (mul (sub b a) (.fin (1 / 2)))

/-- `lo_bound` and `hi_bound` of a finite column, prelim.py:448-453. -/
def bounds (col : List ℚ) : Num × Num :=
  let s := col.mergeSort (fun a b => decide (a ≤ b))
  let iqr := sub (quartile 3 s) (quartile 1 s)
  (sub (median s) (mul (.fin 5) iqr), add (median s) (mul (.fin 5) iqr))

/-- The new value of one entry, prelim.py:455-460. -/
def boundEntry (lo hi v : Num) : Num :=
  let hiMask := Num.lt hi v
  let loMask := Num.lt v lo
  add (add (mul v (ofBool (!(hiMask || loMask)))) (mul (ofBool hiMask) hi)) (mul (ofBool loMask) lo)

/-- `_bound` on one finite column, prelim.py:436-468. -/
def boundCol (col : List ℚ) : List Num :=
  col.map fun v => boundEntry (bounds col).1 (bounds col).2 (.fin v)

/-- `self.x - min_x + 1`, prelim.py:539, for one feature column; `[]` raises in numpy and is left alone. -/
def shiftX : List Num → List Num
  | [] => []
  | a :: l => (a :: l).map fun v => add (sub v (Prelim.npMin a l)) 1

/-- `(self.y - min_y) + np.finfo(float).eps`, prelim.py:555, for the entries of all columns. -/
def shiftY : List Num → List Num
  | [] => []
  | a :: l => (a :: l).map fun v => add (sub v (Prelim.npMin a l)) (.fin Num.eps)

/-- `stats.zscore` of one value, prelim.py:550, 567; mean and deviation are given. -/
def zscore (mu sigma v : Num) : Num := div (sub v mu) sigma

/-- `255.0 * ((data - min) / range)`, _serialisers.py:432 and 443. -/
def scaled (l : List Num) (v : Num) : Num :=
  mul (.fin 255) (div (sub v (Export.npMin l)) (sub (Export.npMax l) (Export.npMin l)))

/-- `_colour_scale` on one column, _serialisers.py:427-435: rounded down. -/
def colours (l : List Num) : List Num := l.map fun v => Export.floorInt (scaled l v)

/-- `_colour_scale_g` on all the entries, _serialisers.py:438-446: rounded to the nearest. -/
def coloursG (l : List Num) : List Num := l.map fun v => Export.roundInt (scaled l v)

end Verif.Double
