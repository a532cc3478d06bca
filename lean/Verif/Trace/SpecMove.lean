import Verif.Trace.PropsOrder
import Verif.Dbscan.Radius
/-!
# Specification for C221: the footprints follow the picture
-/
set_option autoImplicit false

namespace Verif.Trace

variable {G P K : Type} [Field K] [LinearOrder K]

/-- The geometry library follows a motion `φ` of the plane, which takes a geometry `g` to `Φ g`:
every operation gives the moved result on moved arguments, areas and incidences stay as they are.
The triangles of a moved geometry may come in another order.  (The operations of shapely and
alphashape used in trace.py:545-562, 597-650, 730-752; data/model.py:407-415.) -/
structure Follows (geo : Geo G P K) (φ : P → P) (Φ : G → G) : Prop where
  empty : Φ geo.empty = geo.empty
  isEmpty : ∀ g, geo.isEmpty (Φ g) = geo.isEmpty g
  contains : ∀ g q, geo.contains (Φ g) (φ q) = geo.contains g q
  area : ∀ g, geo.area (Φ g) = geo.area g
  inter : ∀ a b, geo.inter (Φ a) (Φ b) = Φ (geo.inter a b)
  diff : ∀ a b, geo.diff (Φ a) (Φ b) = Φ (geo.diff a b)
  union : ∀ a b, geo.union (Φ a) (Φ b) = Φ (geo.union a b)
  smooth : ∀ g, geo.smooth (Φ g) = Φ (geo.smooth g)
  hull : ∀ g, geo.hull (Φ g) = Φ (geo.hull g)
  triangulate : ∀ g, (geo.triangulate (Φ g)).Perm ((geo.triangulate g).map Φ)
  alpha : ∀ l, geo.alpha (l.map φ) = Φ (geo.alpha l)

/-- Geometries are compared as sets of points: the alpha shape does not depend on the order of the
points, a union not on the order of its parts, and pieces can be cut off in any order
(trace.py:555, 730, 752). -/
structure Orderless (geo : Geo G P K) : Prop where
  alpha : ∀ l l', l.Perm l' → geo.alpha l = geo.alpha l'
  comm : ∀ a b, geo.union a b = geo.union b a
  assoc : ∀ a b c, geo.union (geo.union a b) c = geo.union a (geo.union b c)
  diff : ∀ a b c, geo.diff (geo.diff a b) c = geo.diff (geo.diff a c) b

/-- `np.unique(rows, axis=0)` returns every row once, in an order of its own (trace.py:537). -/
structure DistinctRows (geo : Geo G P K) : Prop where
  nodup : ∀ l, (geo.unique l).Nodup
  mem : ∀ l q, q ∈ geo.unique l ↔ q ∈ l

/-- Neighbours are found as trace.py:833-884, 918 does for points of the plane: by the Euclidean
distance and the radius estimated from the bounding box. -/
def Measured (geo : Geo G (Fin 2 → ℝ) K) : Prop :=
  ∀ (l : List (Fin 2 → ℝ)) (k i j : Nat), geo.near l k i j =
    Dbscan.nearReal (fun i => l.getD i 0) (Dbscan.epsilon (fun i => l.getD i 0) l.length k) i j

/-- `φ` shifts the plane, mirrors it on axes and may exchange the axes. -/
def AxisMotion (φ : (Fin 2 → ℝ) → Fin 2 → ℝ) : Prop :=
  ∃ (axis : Equiv.Perm (Fin 2)) (sign shift : Fin 2 → ℝ), (∀ c, sign c = 1 ∨ sign c = -1) ∧
    ∀ q c, φ q c = sign c * q (axis c) + shift c

/-- `φ` keeps all distances, as every rotation does. -/
def Rigid (φ : (Fin 2 → ℝ) → Fin 2 → ℝ) : Prop :=
  ∀ a b, Real.sqrt (∑ c, (φ b c - φ a c) ^ 2) = Real.sqrt (∑ c, (b c - a c) ^ 2)

/-- The footprint moved with the picture: another polygon, the same measures. -/
def moved (Φ : G → G) (f : Footprint G K) : Footprint G K := { f with polygon := f.polygon.map Φ }

/-- All footprints moved with the picture. -/
def movedOut (Φ : G → G) (o : Out G K) : Out G K :=
  ⟨moved Φ o.space, o.good.map (moved Φ), o.best.map (moved Φ), moved Φ o.hard⟩

end Verif.Trace
