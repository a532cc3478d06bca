import Verif.Num
import Mathlib.Algebra.Order.Field.Basic
import Mathlib.Algebra.BigOperators.Fin
/-!
# Model of `instancespace/stages/cloister.py`

Feature values are elements of an ordered field `K` (finite values only; with NaN the hull
computation fails).  A feature matrix is a list of rows, each a vector with `m` entries.
Correlations are extended numbers since `pearsonr` returns NaN for constant features.
-/
set_option autoImplicit false

namespace Verif.Cloister

variable {K : Type} {m : Nat}

/-- `bin(n)[2:]` as a list of bits, most significant first; part of `np.binary_repr`,
cloister.py:258. -/
def bin (n : Nat) : List Nat := if n < 2 then [n] else bin (n / 2) ++ [n % 2]

/-- `np.binary_repr(n, width=w)`, cloister.py:258: filled with zeros on the left. -/
def binaryRepr (w n : Nat) : List Nat := List.replicate (w - (bin n).length) 0 ++ bin n

/-- Row `i` of `_decimal_to_binary_matrix(nfeats)`, cloister.py:257-262: columns are reversed. -/
def idxRow (nfeats i : Nat) : List Nat := (binaryRepr nfeats i).reverse

section
variable [LinearOrder K]

/-- `np.min(x, axis=0)`, cloister.py:319, for a matrix with first row `a` and other rows `l`. -/
def colMin (a : Fin m → K) (l : List (Fin m → K)) (j : Fin m) : K :=
  l.foldl (fun acc r => min acc (r j)) (a j)

/-- `np.max(x, axis=0)`, cloister.py:319. -/
def colMax (a : Fin m → K) (l : List (Fin m → K)) (j : Fin m) : K :=
  l.foldl (fun acc r => max acc (r j)) (a j)

/-- `x_bnds.T.flatten()`, cloister.py:331. -/
def flat (a : Fin m → K) (l : List (Fin m → K)) : List K :=
  (List.finRange m).flatMap fun j => [colMin a l j, colMax a l j]

/-- `np.ravel_multi_index((idx[i], arange(nfeats)), (2, nfeats), order="F")[j]`,
cloister.py:325-329. -/
def ind (i : Nat) (j : Fin m) : Nat := (idxRow m i).getD j 0 + 2 * j

/-- `x_edge[i, :]`, cloister.py:331. -/
def edge [Zero K] (a : Fin m → K) (l : List (Fin m → K)) (i : Nat) : Fin m → K :=
  fun j => (flat a l).getD (ind i j) 0

/-- `np.sign`, cloister.py:337, 340. -/
def sgn [Zero K] (x : K) : Int := if 0 < x then 1 else if x < 0 then -1 else 0

/-- The condition of cloister.py:335-341. -/
def bad [Zero K] (rho : Fin m → Fin m → Num) (thr : Num) (e : Fin m → K) (j k : Fin m) : Bool :=
  (Num.lt thr (rho j k) && (sgn (e j) != sgn (e k))) ||
  (Num.lt (rho j k) (-thr) && (sgn (e j) == sgn (e k)))

/-- The inner loop with its `break`, cloister.py:333-344. -/
def inner (test : Fin m → Bool) : List (Fin m) → Bool
  | [] => false
  | k :: ks => if test k then true else inner test ks

/-- The outer loop with its `break`, cloister.py:332-346. -/
def outer (test : Fin m → Fin m → Bool) : List (Fin m) → Bool
  | [] => false
  | j :: js =>
    if inner (test j) ((List.finRange m).filter fun k => decide (j < k)) then true
    else outer test js

/-- `remove[i]`, cloister.py:323-346. -/
def remove [Zero K] (rho : Fin m → Fin m → Num) (thr : Num) (a : Fin m → K)
    (l : List (Fin m → K)) (i : Nat) : Bool :=
  outer (bad rho thr (edge a l i)) (List.finRange m)

/-- `x_edge`, cloister.py:323-331. -/
def xEdge [Zero K] (a : Fin m → K) (l : List (Fin m → K)) : List (Fin m → K) :=
  (List.range (2 ^ m)).map (edge a l)

/-- `x_edge[~remove, :]`, cloister.py:188. -/
def xKept [Zero K] (rho : Fin m → Fin m → Num) (thr : Num) (a : Fin m → K)
    (l : List (Fin m → K)) : List (Fin m → K) :=
  ((List.range (2 ^ m)).filter fun i => !remove rho thr a l i).map (edge a l)
end

/-- `_compute_correlation`, cloister.py:220-241; `pearson i j` is the pair returned by
`pearsonr(x[:, i], x[:, j])`. -/
def correlation (pearson : Fin m → Fin m → Num × Num) (pThr : Num) (i j : Fin m) : Num :=
  let rho := if i ≠ j then (pearson i j).1 else 0
  let pval := if i ≠ j then (pearson i j).2 else 1
  if Num.lt pThr pval then 0 else rho

/-- `np.dot(row, a.T)` for one row, cloister.py:187-188. -/
def project [Field K] (A : Fin 2 → Fin m → K) (v : Fin m → K) : Fin 2 → K :=
  fun r => ∑ j, v j * A r j

/-- `_compute_convex_hull`, cloister.py:265-286.  `qhull` returns the vertices of `ConvexHull`, or
`none` when it raises one of the two caught exceptions. -/
def hullPoints (qhull : List (Fin 2 → K) → Option (List Nat)) (pts : List (Fin 2 → K)) :
    List (Fin 2 → K) :=
  match qhull pts with
  | none => []
  | some vs => vs.filterMap fun i => pts[i]?

/-- The two outputs, cloister.py:161-199, for a matrix with at least one row. -/
def cloister [Field K] [LinearOrder K] (qhull : List (Fin 2 → K) → Option (List Nat))
    (pearson : Fin m → Fin m → Num × Num) (pThr cThr : Num) (A : Fin 2 → Fin m → K)
    (a : Fin m → K) (l : List (Fin m → K)) : List (Fin 2 → K) × List (Fin 2 → K) :=
  let rho := correlation pearson pThr
  let zEdge := hullPoints qhull ((xEdge a l).map (project A))
  let zEcorr := hullPoints qhull ((xKept rho cThr a l).map (project A))
  (zEdge, if zEcorr.isEmpty then zEdge else zEcorr)

end Verif.Cloister
