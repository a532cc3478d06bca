import Verif.Num
import Verif.Dbscan.Model
import Mathlib.Algebra.Order.Field.Basic
/-!
# Model of the footprint analysis (`instancespace/stages/trace.py`, `Footprint` in
`instancespace/data/model.py`)

Geometry (shapely, alphashape) is abstract: a structure of operations on a type `G` of geometries
and a type `P` of points, which succeed on every argument.  Areas, densities and purities are
elements of an ordered field `K` (exact).  `self.z` is the list `z` of points, a boolean array is a
list of the same length.  Printing and timing are not modelled.
-/
set_option autoImplicit false

namespace Verif.Trace

variable {G P K : Type}

/-- The operations of shapely, alphashape and numpy used by TRACE, trace.py:520-754. -/
structure Geo (G P K : Type) where
  /-- `Polygon()`, trace.py:545 -/
  empty : G
  /-- `.is_empty`, trace.py:599, 645, 735; also the truth value of a geometry (550, 700) -/
  isEmpty : G → Bool
  /-- `g.contains(point)`, trace.py:601, 741; data/model.py:410 -/
  contains : G → P → Bool
  /-- `g.contains(MultiPoint(z))`, a single truth value, trace.py:688 -/
  containsMulti : G → List P → Bool
  /-- `.area`, trace.py:620; data/model.py:415 -/
  area : G → K
  /-- `.intersection`, trace.py:597 -/
  inter : G → G → G
  /-- `.difference`, trace.py:625, 634, 752 -/
  diff : G → G → G
  /-- `.union`, trace.py:555 -/
  union : G → G → G
  /-- `.geoms` of a `MultiPolygon`, `none` for other geometries, trace.py:679-683 -/
  geoms : G → Option (List G)
  /-- `.buffer(0.01).buffer(-0.01)`, data/model.py:407 -/
  smooth : G → G
  /-- `alphashape(polydata, 2.15).simplify(0.05)`, trace.py:730-732 -/
  alpha : List P → G
  /-- `triangulate`, trace.py:737 -/
  triangulate : G → List G
  /-- `.convex_hull`, trace.py:741 -/
  hull : G → G
  /-- `np.unique(rows, axis=0)`, trace.py:537 -/
  unique : List P → List P
  /-- `d <= eps` for the points of the list with `eps` estimated by `epsilon(data, k)`,
  trace.py:833, 837-857, 918 -/
  near : List P → Nat → Nat → Nat → Bool

/-- `Footprint`, data/model.py:350-375. -/
structure Footprint (G K : Type) where
  polygon : Option G
  area : K
  elements : Nat
  good : Nat
  density : K
  purity : K
  deriving DecidableEq

/-- Exceptions of Python that can leave the analysis, trace.py:352-754. -/
inductive Err
  | attributeError | indexError | zeroDivision
  deriving DecidableEq, Repr

/-- `a[mask]` for a boolean mask, trace.py:534, 606, 748; data/model.py:413. -/
def masked {α : Type} : List α → List Bool → List α
  | a :: l, b :: m => if b then a :: masked l m else masked l m
  | _, _ => []

/-- `np.sum([g.contains(point) for point in ...])`, trace.py:600-614, 739-750;
data/model.py:409-414. -/
def count (geo : Geo G P K) (g : G) (pts : List P) : Nat := (pts.filter (geo.contains g)).length

section
variable [Field K] [LinearOrder K]

/-- `Footprint(None, 0, 0, 0, 0, 0)`: `throw`, trace.py:808-810; data/model.py:404. -/
def missing : Footprint G K := ⟨none, 0, 0, 0, 0, 0⟩

/-- `Footprint.from_polygon`, data/model.py:403-425. -/
def fromPolygon (geo : Geo G P K) (polygon : Option G) (z : List P) (y : List Bool)
    (smoothen : Bool) : Footprint G K :=
  match polygon with
  | none => missing
  | some g =>
    let g := if smoothen then geo.smooth g else g
    let elements := count geo g z
    let good := count geo g (masked z y)
    { polygon := some g, area := geo.area g, elements, good
      density := if geo.area g ≠ 0 then (elements : K) / geo.area g else 0
      purity := if elements ≠ 0 then (good : K) / (elements : K) else 0 }

/-- The body of the loop over the triangles, trace.py:739-752. -/
def prune (geo : Geo G P K) (purity : K) (z : List P) (y : List Bool) (polygon piece : G) : G :=
  let elements := count geo (geo.hull piece) z
  let good := count geo (geo.hull piece) (masked z y)
  if 0 < elements ∧ (good : K) / (elements : K) < purity then geo.diff polygon piece else polygon

/-- `fit_poly`, trace.py:727-754. -/
def fitPoly (geo : Geo G P K) (purity : K) (z : List P) (polydata : List P) (y : List Bool) :
    Option G :=
  if polydata.length < 3 then none
  else
    let polygon := geo.alpha polydata
    if y.all id then some polygon
    else if geo.isEmpty polygon then none
    else some ((geo.triangulate polygon).foldl (prune geo purity z y) polygon)

/-- `nn`, trace.py:831. -/
def minPoints (y : List Bool) : Nat := max (min ((y.count true + 19) / 20) 50) 3

/-- The points with label `i`, trace.py:547. -/
def labelled (pts : List P) (labels : List Int) (i : Int) : List P :=
  masked pts (labels.map fun c => decide (c = i))

/-- `polygon_body` after the loop over the labels, trace.py:544-555; `none` while `flag` is
false. -/
def body (geo : Geo G P K) (purity : K) (z : List P) (y : List Bool) (pts : List P)
    (labels : List Int) : List Nat → Option G → Option G
  | [], acc => acc
  | i :: is, acc =>
    match fitPoly geo purity z (labelled pts labels i) y with
    | none => body geo purity z y pts labels is acc
    | some aux =>
      if geo.isEmpty aux then body geo purity z y pts labels is acc
      else match acc with
        | none => body geo purity z y pts labels is (some aux)
        | some b => body geo purity z y pts labels is (some (geo.union b aux))

/-- `build`, trace.py:534-562. -/
def build (geo : Geo G P K) (purity : K) (z : List P) (y : List Bool) : Footprint G K :=
  let pts := geo.unique (masked z y)
  if pts.length < 3 then missing
  else
    let nn := minPoints y
    let labels := Dbscan.dbscan (geo.near pts nn) pts.length nn
    let top := labels.foldl max (-1)
    let is := (List.range top.toNat).map (· + 1)
    fromPolygon geo (some ((body geo purity z y pts labels is none).getD geo.empty)) z y true

/-- `tight`, trace.py:676-705: `contains` of a multipoint is one truth value (688), and indexing
an array with a geometry (697) raises `IndexError`, so no polygon is ever refined. -/
def tight (geo : Geo G P K) (z : List P) (polygon : G) (y : List Bool) : Except Err (Option G) :=
  let splits := (geo.geoms polygon).getD [polygon]
  let raises := splits.any fun g =>
    let polydata := masked z (y.map fun b => geo.containsMulti g z && b)
    decide (3 ≤ polydata.length)
  if raises then .error .indexError else .ok none

/-- The loop of `contra`, trace.py:599-650; `tries` is the number of iterations left, three at
first (`max_tries`), so `num_tries < max_tries` is `1 < tries`.  The purities are compared as
`0 / 0 = nan` is when no instance lies in the contradiction: neither comparison holds. -/
def contraLoop (geo : Geo G P K) (z : List P) (yBase yTest : List Bool) :
    Nat → G → G → Except Err (Option G × Option G)
  | 0, base, test => .ok (some base, some test)
  | tries + 1, base, test =>
    let c := geo.inter base test
    if geo.isEmpty c then .ok (some base, some test)
    else
      let n := count geo c z
      let nb := count geo c (masked z yBase)
      let nt := count geo c (masked z yTest)
      if n ≠ 0 ∧ nt < nb then
        if geo.area test = 0 then .error .zeroDivision
        else
          let test' := geo.diff test c
          match (if 1 < tries + 1 then tight geo z test' yTest else .ok (some test')) with
          | .error e => .error e
          | .ok t =>
            if geo.isEmpty base then .ok (some base, t)
            else match t with
              | none => .error .attributeError
              | some t =>
                if geo.isEmpty t then .ok (some base, some t)
                else contraLoop geo z yBase yTest tries base t
      else if n ≠ 0 ∧ nb < nt then
        if geo.area base = 0 then .error .zeroDivision
        else
          let base' := geo.diff base c
          match (if 1 < tries + 1 then tight geo z base' yBase else .ok (some base')) with
          | .error e => .error e
          | .ok none => .error .attributeError
          | .ok (some b) =>
            if geo.isEmpty b || geo.isEmpty test then .ok (some b, some test)
            else contraLoop geo z yBase yTest tries b test
      else .ok (some base, some test)

/-- `contra`, trace.py:589-655. -/
def contra (geo : Geo G P K) (z : List P) (base test : Footprint G K) (yBase yTest : List Bool) :
    Except Err (Footprint G K × Footprint G K) :=
  match base.polygon, test.polygon with
  | some b, some t =>
    match contraLoop geo z yBase yTest 3 b t with
    | .error e => .error e
    | .ok (b, t) => .ok (fromPolygon geo b z yBase false, fromPolygon geo t z yTest false)
  | _, _ => .ok (base, test)

/-- `[int(v) == i for v in self.p]`, trace.py:416-419, 431-434, 972-975. -/
def bestMask (p : List Nat) (i : Nat) : List Bool := p.map fun v => decide (v = i)

/-- Column `i` of `y_bin`, trace.py:969. -/
def goodMask (yBin : List (List Bool)) (i : Nat) : List Bool := yBin.map fun r => r.getD i false

/-- `process_algorithm`, trace.py:967-984. -/
def processAlgorithm (geo : Geo G P K) (purity : K) (z : List P) (yBin : List (List Bool))
    (p : List Nat) (i : Nat) : Footprint G K × Footprint G K :=
  (build geo purity z (goodMask yBin i), build geo purity z (bestMask p i))

/-- The inner loop over the test algorithms, trace.py:421-437. -/
def contraInner (geo : Geo G P K) (z : List P) (p : List Nat) (i : Nat) :
    List Nat → List (Footprint G K) → Except Err (List (Footprint G K))
  | [], best => .ok best
  | j :: js, best =>
    match contra geo z (best.getD i missing) (best.getD j missing) (bestMask p i) (bestMask p j) with
    | .error e => .error e
    | .ok (b, t) => contraInner geo z p i js ((best.set i b).set j t)

/-- The outer loop over the base algorithms, trace.py:410-451. -/
def contraOuter (geo : Geo G P K) (z : List P) (p : List Nat) (n : Nat) :
    List Nat → List (Footprint G K) → Except Err (List (Footprint G K))
  | [], best => .ok best
  | i :: is, best =>
    match contraInner geo z p i ((List.range n).filter fun j => decide (i < j)) best with
    | .error e => .error e
    | .ok best => contraOuter geo z p n is best

/-- The footprints returned by `_trace`, trace.py:512-518. -/
structure Out (G K : Type) where
  space : Footprint G K
  good : List (Footprint G K)
  best : List (Footprint G K)
  hard : Footprint G K

/-- `_trace`, trace.py:378-461 and 512-518; `quals` are the lists returned by
`compute_algorithm_qualities` (400).  The summary table (471-505) is modelled by `summary`. -/
def trace (geo : Geo G P K) (purity : K) (z : List P) (p : List Nat) (beta : List Bool) (n : Nat)
    (quals : List (Footprint G K) × List (Footprint G K)) : Except Err (Out G K) :=
  match contraOuter geo z p n (List.range n) quals.2 with
  | .error e => .error e
  | .ok best => .ok {
      space := build geo purity z (z.map fun _ => true)
      good := quals.1
      best
      hard := build geo purity z (beta.map not) }
end

/-- The loop `for future in as_completed(futures)`, trace.py:1012-1018: the futures in the order
in which they complete; `f i` is the outcome of `process_algorithm(i)`. -/
def collect {A B E : Type} (f : Nat → Except E (A × B)) :
    List Nat → List A × List B → Except E (List A × List B)
  | [], r => .ok r
  | i :: is, r =>
    match f i with
    | .error e => .error e
    | .ok (a, b) => collect f is (r.1.set i a, r.2.set i b)

/-- `compute_algorithm_qualities`, trace.py:1004-1020; `a0` and `b0` are the initial footprints. -/
def computeQualities {A B E : Type} (a0 : A) (b0 : B) (f : Nat → Except E (A × B)) (n : Nat)
    (order : List Nat) : Except E (List A × List B) :=
  collect f order (List.replicate n a0, List.replicate n b0)

/-- One row of the summary, trace.py:779-797: area, normalised area, density, normalised density
and purity of a footprint, as floats. -/
def summary (area density purity spaceArea spaceDensity : Num) : List Num :=
  let out := [area, if spaceArea.eq 0 then area else area / spaceArea,
    density, if spaceDensity.eq 0 then density else density / spaceDensity, purity]
  out.map fun v => if v.isNan then 0 else v

end Verif.Trace
