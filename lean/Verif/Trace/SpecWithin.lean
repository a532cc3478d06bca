import Verif.Trace.Model
import Mathlib.Analysis.Convex.Hull
/-!
# Specification of where footprints lie
-/
set_option autoImplicit false

namespace Verif.Trace

variable {G P K : Type} [AddCommGroup P] [Module ℚ P]

/-- `region g` is where the geometry `g` lies.  What lies inside a geometry belongs to its region; the empty
geometry lies nowhere; a union lies in its parts and a difference in its first part; the distinct rows of a
list are rows of it.  The polygon around points, with corners among them, and what smoothing adds to a
geometry, lie between points of these. -/
structure Regions (geo : Geo G P K) (region : G → Set P) : Prop where
  inside : ∀ g p, geo.contains g p = true → p ∈ region g
  empty : region geo.empty = ∅
  union : ∀ a b, region (geo.union a b) ⊆ region a ∪ region b
  diff : ∀ a b, region (geo.diff a b) ⊆ region a
  unique : ∀ l, ∀ p ∈ geo.unique l, p ∈ l
  alpha : ∀ l, region (geo.alpha l) ⊆ convexHull ℚ {p | p ∈ l}
  smooth : ∀ g, region (geo.smooth g) ⊆ convexHull ℚ (region g)

end Verif.Trace
