import Verif.Double.Model
import Verif.Filter.Model
import Mathlib.Data.Nat.Sqrt
import Mathlib.Algebra.Order.Floor.Semiring
/-!
# Distances in double precision
-/
set_option autoImplicit false

namespace Verif.Double

open Verif (Num)

/-- The double nearest to the square root of a positive number (IEEE 754 `sqrt`, used by `cdist`, filter.py:72,
and `np.sqrt`, filter.py:61): `u` is the distance of the doubles around the root, `k * u` the last of them that
is not larger than the root; a root is never halfway between two doubles. -/
def sqrtBits (q : ℚ) : ℚ :=
  let u : ℚ := 2 ^ (Int.log 2 q / 2 - 52)
  let k := Nat.sqrt ⌊q / u ^ 2⌋₊
  (if 4 * (q / u ^ 2) < (2 * k + 1) ^ 2 then (k : ℚ) else k + 1) * u

/-- `sqrt` on doubles, filter.py:61, 72-73. -/
def sqrt : Num → Num
  | .fin q => if q < 0 then .nan else if q = 0 then .fin 0 else .fin (sqrtBits q)
  | .pinf => .pinf
  | _ => .nan

/-- The sum of the squared differences of the rest of two rows, added to `acc` one by one; filter.py:72-73 (`cdist`
with its default metric; fused operations, which some compilers generate, are not modelled). -/
def sumSquares (acc : Num) : List Num → List Num → Num
  | a :: as, b :: bs => sumSquares (add acc (mul (sub a b) (sub a b))) as bs
  | _, _ => acc

/-- `cdist([a], [b]).item()`, filter.py:72-73. -/
def dist (a b : List Num) : Num := sqrt (sumSquares (.fin 0) a b)

/-- An instance with doubles: its features, performances and goodness; the arguments of filter.py:12-18. -/
structure Inst where
  x : List Num
  y : List Num
  good : List Bool
  deriving DecidableEq

/-- The tests of filter.py:61, 72-76, 82 on doubles. -/
def filterTests (nalgos nfeats : Nat) (d : Num) : Filter.Tests Inst where
  near a b := Num.le (dist a.x b.x) d
  close a b := Num.le (dist a.y b.y) (mul (sqrt (div (.fin nalgos) (.fin nfeats))) d)
  bothGood a b := (List.zipWith (fun u v => u && v) a.good b.good).all id

end Verif.Double
