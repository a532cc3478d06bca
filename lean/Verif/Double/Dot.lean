import Verif.Double.Model
/-!
# Sums of products in double precision (`x @ out_a.T` and `np.dot(x, a.T)`, pilot.py, cloister.py)
-/
set_option autoImplicit false

namespace Verif.Double

open Verif (Num)

/-- An order in which a sum of products is computed.  numpy leaves it to the linear algebra library,
which may add in any order, in several partial sums, and with fused multiply-add instructions
(pilot.py:265, 412 and 517, cloister.py:187-188). -/
inductive Sum
  /-- the product number `i`, rounded -/
  | prod (i : Nat)
  /-- the rounded sum of two partial sums -/
  | add (s t : Sum)
  /-- the product number `i` added to a partial sum with one rounding -/
  | fma (s : Sum) (i : Nat)

/-- The products that are added, pilot.py:265. -/
def Sum.terms : Sum → List Nat
  | .prod i => [i]
  | .add s t => s.terms ++ t.terms
  | .fma s i => s.terms ++ [i]

/-- The computed number, pilot.py:265: `a` is a row of the projection matrix, `x` the features of an
instance. -/
def Sum.value (a x : Nat → Num) : Sum → Num
  | .prod i => mul (a i) (x i)
  | .add s t => Double.add (s.value a x) (t.value a x)
  | .fma s i => rounded (s.value a x + a i * x i)

end Verif.Double
