import Verif.Cloister.Model
import Mathlib.Analysis.Convex.Hull
import Mathlib.Order.Bounds.Basic
/-!
# Specification vocabulary for CLOISTER
-/
set_option autoImplicit false

namespace Verif.Cloister

variable {K : Type} {m : Nat}

/-- The values of feature `j`. -/
def column (rows : List (Fin m → K)) (j : Fin m) : Set K := {v | ∃ r ∈ rows, r j = v}

/-- `e` is the corner of the bounding box of the rows that lies on the upper side of exactly the
features chosen by `c`. -/
def IsCorner [LinearOrder K] (rows : List (Fin m → K)) (c : Fin m → Bool) (e : Fin m → K) : Prop :=
  ∀ j, (c j = true → IsGreatest (column rows j) (e j)) ∧
    (c j = false → IsLeast (column rows j) (e j))

/-- Both positive, both negative or both zero. -/
def SameSign [LinearOrder K] [Zero K] (a b : K) : Prop := (0 < a ↔ 0 < b) ∧ (a < 0 ↔ b < 0)

/-- A corner contradicts the correlation between the features `j` and `k`. -/
def Contradicts [LinearOrder K] [Zero K] (rho : Fin m → Fin m → Num) (thr : Num) (e : Fin m → K)
    (j k : Fin m) : Prop :=
  (Num.lt thr (rho j k) = true ∧ ¬ SameSign (e j) (e k)) ∨
    (Num.lt (rho j k) (-thr) = true ∧ SameSign (e j) (e k))

/-- The point of the plane at which PILOT places an instance with the features `v`: coordinate `k` is
the combination of the features with the coefficients in row `k` of `A`. -/
def place [Field K] (A : Fin 2 → Fin m → K) (v : Fin m → K) : Fin 2 → K := ![∑ j, A 0 j * v j, ∑ j, A 1 j * v j]

/-- The points of a list. -/
def pointSet (l : List (Fin 2 → K)) : Set (Fin 2 → K) := {p | p ∈ l}

/-- What `scipy.spatial.ConvexHull` promises when it succeeds: the vertices are positions of
points, and the points with these positions have the same convex hull as all the points. -/
def HullCorrect [Field K] [LinearOrder K] (qhull : List (Fin 2 → K) → Option (List Nat)) : Prop :=
  ∀ pts vs, qhull pts = some vs →
    convexHull K {p | ∃ i ∈ vs, pts[i]? = some p} = convexHull K (pointSet pts)

end Verif.Cloister
