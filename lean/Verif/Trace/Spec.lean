import Verif.Trace.Model
/-!
# Specification vocabulary for the footprint analysis
-/
set_option autoImplicit false

namespace Verif.Trace

variable {G P K : Type} [Field K] [LinearOrder K]

/-- What is assumed of the geometry library, where a theorem says so. -/
structure Laws (geo : Geo G P K) : Prop where
  area_nonneg : ∀ g, 0 ≤ geo.area g
  /-- a geometry without area has no interior -/
  area_zero : ∀ g p, geo.area g = 0 → geo.contains g p = false
  /-- only non-empty geometries overlap -/
  inter_left : ∀ a b, geo.isEmpty a = true → geo.isEmpty (geo.inter a b) = true
  inter_right : ∀ a b, geo.isEmpty b = true → geo.isEmpty (geo.inter a b) = true
  /-- a point strictly inside a difference is inside the first geometry and outside the second -/
  diff_contains : ∀ a b p, geo.contains (geo.diff a b) p = true →
    geo.contains a p = true ∧ geo.contains b p = false
  /-- there are at most as many distinct rows as rows -/
  unique_length : ∀ l, (geo.unique l).length ≤ l.length
  /-- a piece of a triangulation is convex -/
  hull_piece : ∀ g t p, t ∈ geo.triangulate g → geo.contains (geo.hull t) p = geo.contains t p

/-- The measures of a footprint agree with each other. -/
structure Consistent (f : Footprint G K) : Prop where
  good_le : f.good ≤ f.elements
  purity_nonneg : 0 ≤ f.purity
  purity_le : f.purity ≤ 1
  purity_eq : f.purity * f.elements = f.good
  density_nonneg : 0 ≤ f.density
  density_eq : f.density * f.area = f.elements

/-- The instances of a mask that lie in a geometry. -/
def inside (geo : Geo G P K) (g : G) (z : List P) (y : List Bool) : Nat :=
  ((z.zip y).filter fun q => q.2 && geo.contains g q.1).length

/-- Two polygons overlap and the overlap contains more instances of one mask than of the other. -/
def Conflict (geo : Geo G P K) (z : List P) (b t : G) (yBase yTest : List Bool) : Prop :=
  geo.isEmpty (geo.inter b t) = false ∧
    inside geo (geo.inter b t) z yBase ≠ inside geo (geo.inter b t) z yTest

/-- The result promised for two overlapping polygons: the overlap is removed from the less pure
one, the other keeps its shape. -/
def Resolved (geo : Geo G P K) (z : List P) (b t : G) (yBase yTest : List Bool)
    (r : Footprint G K × Footprint G K) : Prop :=
  (inside geo (geo.inter b t) z yTest < inside geo (geo.inter b t) z yBase →
    r.1.polygon = some b ∧ r.2.polygon = some (geo.diff t (geo.inter b t))) ∧
  (inside geo (geo.inter b t) z yBase < inside geo (geo.inter b t) z yTest →
    r.1.polygon = some (geo.diff b (geo.inter b t)) ∧ r.2.polygon = some t)

end Verif.Trace
