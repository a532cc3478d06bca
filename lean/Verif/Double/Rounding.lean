import Verif.Double.Shares
import Verif.Pythia.Model
/-!
# Numbers rounded to three decimals, in double precision
-/
set_option autoImplicit false

namespace Verif.Double

open Verif (Num)

/-- `rint` on doubles, part of `np.round` (pythia.py:809, 839): the nearest integer, halves go to the even one. -/
def rint : Num → Num
  | .fin q => .fin (nearest q)
  | v => v

/-- `np.round(·, 3)`, pythia.py:809-810, 839-878: numpy multiplies by 1000, rounds to an integer and divides. -/
def round3 (v : Num) : Num := div (rint (mul v (.fin 1000))) (.fin 1000)

/-- An entry of `np.round(100 * np.append(accuracy, …), 3)`, pythia.py:865-876, for a measure that is a share. -/
def percent (count total : Nat) : Num := round3 (mul (.fin 100) (share count total))

end Verif.Double
