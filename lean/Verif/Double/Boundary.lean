import Verif.Double.Dot
import Verif.Cloister.Model
/-!
# CLOISTER's boundary in double precision (`_generate_boundaries`, `np.dot(x_edge, a.T)`, cloister.py)

The smallest and the largest value of a feature are found without rounding, so the corners are those of
`Verif.Cloister.edge`; only the projection rounds.
-/
set_option autoImplicit false

namespace Verif.Double

open Verif (Num)
open Verif.Cloister (edge hullPoints)

variable {m : Nat}

/-- A row with `m` entries as the sequence that `Sum.value` reads, pilot.py:265, cloister.py:187. -/
def spread (v : Fin m → ℚ) : Nat → ℚ := fun i => if h : i < m then v ⟨i, h⟩ else 0

/-- One row of `x @ out_a.T` or of `np.dot(x_edge, a.T)`, pilot.py:265, cloister.py:187; `s k` is the
order in which the library adds the products of coordinate `k` of this row. -/
def projectD (s : Fin 2 → Sum) (A : Fin 2 → Fin m → ℚ) (v : Fin m → ℚ) : Fin 2 → Num :=
  fun k => (s k).value (fun i => .fin (spread (A k) i)) (fun i => .fin (spread v i))

/-- A point for `ConvexHull`, cloister.py:280: both coordinates must be finite. -/
def point (p : Fin 2 → Num) : Option (Fin 2 → ℚ) :=
  match p 0, p 1 with
  | .fin x, .fin y => some ![x, y]
  | _, _ => none

/-- `np.dot(x_edge, a.T)`, cloister.py:187, as points; `s i` are the orders for corner number `i`. -/
def cornersD (s : Nat → Fin 2 → Sum) (A : Fin 2 → Fin m → ℚ) (a : Fin m → ℚ)
    (l : List (Fin m → ℚ)) : List (Option (Fin 2 → ℚ)) :=
  (List.range (2 ^ m)).map fun i => point (projectD (s i) A (edge a l i))

/-- `z_edge`, cloister.py:187, 279-286: `ConvexHull` raises one of the caught exceptions if a coordinate
is not finite. -/
def boundaryD (qhull : List (Fin 2 → ℚ) → Option (List Nat)) (s : Nat → Fin 2 → Sum)
    (A : Fin 2 → Fin m → ℚ) (a : Fin m → ℚ) (l : List (Fin m → ℚ)) : List (Fin 2 → ℚ) :=
  if (cornersD s A a l).all Option.isSome then hullPoints qhull ((cornersD s A a l).filterMap id) else []

end Verif.Double
