import Mathlib.Data.Matrix.Mul
import Mathlib.Algebra.Order.Field.Basic
import Mathlib.Algebra.BigOperators.Fin
import Mathlib.Tactic.Linarith
/-!
# Model of `instancespace/stages/pilot.py`

Arrays are matrices over an ordered field `K`: exact arithmetic instead of floating point numbers,
and data without missing values (for missing performances see `Gaps.lean`).  `p` instances, `n` features, `q` algorithms; the `m` of the code
is `n + q`.  Parameters: the eigen-decomposition, `np.argsort`, the matrix inverse, the optimiser,
the rounding to half precision, the random starting points and the comparison of the distances
before and after the projection.  Printing is not modelled.
-/
set_option autoImplicit false

namespace Verif.Pilot

variable {K : Type} [Field K] [LinearOrder K] {p n q : Nat}

/-- Exceptions of Python that can leave the stage, pilot.py:175-565. -/
inductive Err
  | unboundLocal | indexError | linAlg | tooFewColumns | valueError
  deriving DecidableEq, Repr

/-- Length of a column of `alpha`: `2 * m + 2 * n`, pilot.py:224 and 244-246. -/
abbrev len (n q : Nat) : Nat := 2 * (n + q) + 2 * n

/-- What the libraries and the random generator contribute; the calls are at pilot.py:204, 244, 290, 395,
397, 407, 503 and 517. -/
structure Lib (K : Type) (p n q : Nat) where
  /-- `la.eig`, pilot.py:395: eigenvalues (of a symmetric matrix, hence real) and eigenvectors as
  columns. -/
  eig : Matrix (Fin (n + q)) (Fin (n + q)) K → (Fin (n + q) → K) × Matrix (Fin (n + q)) (Fin (n + q)) K
  /-- `np.argsort`, pilot.py:397: the positions in ascending order of their values. -/
  argsort : (Fin (n + q) → K) → List (Fin (n + q))
  /-- `np.linalg.inv`, pilot.py:407; `none`: `LinAlgError`. -/
  inv : Matrix (Fin n) (Fin n) K → Option (Matrix (Fin n) (Fin n) K)
  /-- `astype(np.float16)`, pilot.py:290, 429 and 523; overflow to infinity is not modelled. -/
  half : K → K
  /-- `optim.fmin_bfgs`, pilot.py:503-511: the point reached and its value. -/
  bfgs : ((Fin (len n q) → K) → K) → (Fin (len n q) → K) → (Fin (len n q) → K) × K
  /-- `pearsonr(hd, pdist(z))` as a function of `z`, pilot.py:204 and 517-519; `none`: NaN.  Fewer than
  two distances are an error, see `numericalSolve`. -/
  quality : Matrix (Fin p) (Fin 2) K → Option K
  /-- The random starting points, pilot.py:243-244: one list entry per column. -/
  starts : Nat → List (Fin (len n q) → K)

/-- `PilotOptions`, data/options.py:274-291: `alpha` with its shape, `x0` as the list of its columns (whose
length is taken to be right). -/
structure Options (K : Type) (n q : Nat) where
  analytic : Bool
  nTries : Nat
  alpha : Option ((Nat × Nat) × (Nat → Nat → K))
  x0 : Option (List (Fin (len n q) → K))

/-- The summary, pilot.py:273-287: the labels of the rows and for each column its name and values. -/
structure Summary (K : Type) where
  rows : List String
  columns : List (String × List K)
  deriving DecidableEq

/-- `PilotOutput`, pilot.py:46-86. -/
structure Out (K : Type) (p n q : Nat) where
  x0 : Option (List (Fin (len n q) → K))
  alpha : Option (List (Fin (len n q) → K))
  eoptim : Option (List K)
  perf : Option (List (Option K))
  a : Matrix (Fin 2) (Fin n) K
  z : Matrix (Fin p) (Fin 2) K
  /-- The number of columns of `c`. -/
  cCols : Nat
  c : Matrix (Fin 2) (Fin cCols) K
  b : Matrix (Fin n) (Fin 2) K
  error : K
  /-- `none`: NaN. -/
  r2 : List (Option K)
  summary : Summary K

/-- `np.concatenate((x, y), axis=1)`, pilot.py:202. -/
def xBar (x : Matrix (Fin p) (Fin n) K) (y : Matrix (Fin p) (Fin q) K) :
    Matrix (Fin p) (Fin (n + q)) K :=
  fun i => Fin.append (x i) (y i)

/-- `np.sum((u - v) ** 2)`, pilot.py:270 and 421. -/
def sumSquares {r s : Nat} (u v : Matrix (Fin r) (Fin s) K) : K := ∑ i, ∑ j, (u i j - v i j) ^ 2

/-- The mean of a variable, used by `np.corrcoef`, pilot.py:271 and 422. -/
def mean {r : Nat} (u : Fin r → K) : K := (∑ i, u i) / r

/-- The square of an entry of `np.corrcoef`, pilot.py:271 and 422; NaN (`none`) for a constant
variable. -/
def sqCorr {r : Nat} (u v : Fin r → K) : Option K :=
  let uu := ∑ i, (u i - mean u) ^ 2
  let vv := ∑ i, (v i - mean v) ^ 2
  let uv := ∑ i, (u i - mean u) * (v i - mean v)
  if uu = 0 ∨ vv = 0 then none else some (uv ^ 2 / (uu * vv))

/-! ### Analytic solution -/

/-- Results of `analytic_solve`, pilot.py:431. -/
structure Analytic (K : Type) (p n q : Nat) where
  a : Matrix (Fin 2) (Fin n) K
  z : Matrix (Fin p) (Fin 2) K
  c : Matrix (Fin 2) (Fin q) K
  b : Matrix (Fin n) (Fin 2) K
  error : K
  r2 : List (Option K)

/-- `np.vstack`, pilot.py:417. -/
def vstack {r s t : Nat} (u : Matrix (Fin r) (Fin t) K) (v : Matrix (Fin s) (Fin t) K) :
    Matrix (Fin (r + s)) (Fin t) K :=
  Matrix.of fun i j => Fin.addCases (fun k => u k j) (fun k => v k j) i

/-- The first two indices after the reversal, `indices[::-1]` and `[:2]`, pilot.py:397-399.  Fewer
than two columns (no algorithm and a single feature) are reported as an error here. -/
def leading (lib : Lib K p n q) (d : Fin (n + q) → K) : Option (Fin (n + q) × Fin (n + q)) :=
  match (lib.argsort fun i => |d i|).reverse with
  | i :: j :: _ => some (i, j)
  | _ => none

/-- `-1 * v[:, indices[:2]]`, pilot.py:399. -/
def leadingVectors (v : Matrix (Fin (n + q)) (Fin (n + q)) K) (ij : Fin (n + q) × Fin (n + q)) :
    Matrix (Fin (n + q)) (Fin 2) K :=
  fun r k => -1 * v r (if k = 0 then ij.1 else ij.2)

/-- `analytic_solve`, pilot.py:333-431.  `x` and `x_bar` are those of the caller; the code works on
their transposes. -/
def analyticSolve (lib : Lib K p n q) (x : Matrix (Fin p) (Fin n) K)
    (xbar : Matrix (Fin p) (Fin (n + q)) K) : Except Err (Analytic K p n q) :=
  let xbarT := xbar.transpose
  let xT := x.transpose
  let dv := lib.eig (xbarT * xbarT.transpose)
  match leading lib dv.1 with
  | none => .error .tooFewColumns
  | some ij =>
      let v := leadingVectors dv.2 ij
      let b : Matrix (Fin n) (Fin 2) K := fun i => v (Fin.castAdd q i)
      let c : Matrix (Fin 2) (Fin q) K := fun k j => v (Fin.natAdd n j) k
      match lib.inv (xT * xT.transpose) with
      | none => .error .linAlg
      | some xxInv =>
          let xr := xT.transpose * xxInv
          let a := v.transpose * xbarT * xr
          let z := a * xT
          let xhat := vstack (b * z) (c.transpose * z)
          .ok
            { a, z := z.transpose, c, b, error := sumSquares xbarT xhat,
              r2 := List.ofFn fun j => (sqCorr (xbarT j) (xhat j)).map lib.half }

/-! ### Numerical solution -/

/-- `alpha[: 2 * n].reshape(2, n)`, pilot.py:264, 516 and 556. -/
def aOf (alpha : Fin (len n q) → K) : Matrix (Fin 2) (Fin n) K := fun i j =>
  alpha ⟨i * n + j, by
    have : i.val * n ≤ 1 * n := Nat.mul_le_mul_right _ (by omega)
    have := j.isLt
    unfold len
    omega⟩

/-- `alpha[2 * n :].reshape(m, 2)`, pilot.py:266 and 557. -/
def bOf (alpha : Fin (len n q) → K) : Matrix (Fin (n + q)) (Fin 2) K := fun i j =>
  alpha ⟨2 * n + (2 * i + j), by unfold len; omega⟩

/-- `error_function`, pilot.py:530-565, for data without missing values. -/
def errorFunction (xbar : Matrix (Fin p) (Fin (n + q)) K) (alpha : Fin (len n q) → K) : K :=
  let x : Matrix (Fin p) (Fin n) K := fun i j => xbar i (Fin.castAdd q j)
  let approx := (bOf alpha * aOf alpha * x.transpose).transpose
  (∑ i, (∑ j, (xbar i j - approx i j) ^ 2) / ((n + q : Nat) : K)) / (p : K)

/-- `np.argmax`, pilot.py:520: the first NaN if there is one, otherwise the first largest value.  Arguments: next
position, best so far and its position, remaining values. -/
def argmaxFrom : Nat → Option K → Nat → List (Option K) → Nat
  | _, _, k, [] => k
  | i, none, k, _ :: l => argmaxFrom (i + 1) none k l
  | i, some _, _, none :: l => argmaxFrom (i + 1) none i l
  | i, some a, k, some b :: l =>
      if a < b then argmaxFrom (i + 1) (some b) i l else argmaxFrom (i + 1) (some a) k l

/-- `np.argmax(perf)`, pilot.py:520; `none` for an empty array. -/
def argmax : List (Option K) → Option Nat
  | [] => none
  | a :: l => some (argmaxFrom 1 a 0 l)

/-- Results of `numerical_solve`, pilot.py:527. -/
structure Numerical (K : Type) (n q : Nat) where
  idx : Nat
  alpha : List (Fin (len n q) → K)
  eoptim : List K
  perf : List (Option K)

/-- `numerical_solve`, pilot.py:434-527.  The index and the rounded copy are assigned in every
iteration; only the last ones, over all tries, are returned.  Without tries they are unbound.  The
first comparison of distances, pilot.py:517-519, raises a `ValueError` if there are fewer than two
distances, that is fewer than three instances; before that the first starting point is read. -/
def numericalSolve (lib : Lib K p n q) (x : Matrix (Fin p) (Fin n) K)
    (xbar : Matrix (Fin p) (Fin (n + q)) K) (x0 : List (Fin (len n q) → K)) (nTries : Nat) :
    Except Err (Numerical K n q) :=
  if p < 3 ∧ 0 < nTries then .error (if x0.length = 0 then .indexError else .valueError)
  else if x0.length < nTries then .error .indexError
  else
    let results := (x0.take nTries).map fun guess => lib.bfgs (errorFunction xbar) guess
    let perf := results.map fun r => lib.quality (x * (aOf r.1).transpose)
    match argmax perf with
    | none => .error .unboundLocal
    | some idx =>
        .ok
          { idx, alpha := results.map fun r i => lib.half (r.1 i), eoptim := results.map (·.2), perf }

/-- The summary, pilot.py:273-287: `Z_{1}` and `Z_{2}`, then one column per feature label.  The
first column is called `0` in the code and here `rows`.  The pipeline gives one label per feature;
any other number is a ValueError here (in the code: ValueError in numerical mode, IndexError or
columns without name in analytic mode). -/
def summary (a : Matrix (Fin 2) (Fin n) K) (featLabels : List String) : Except Err (Summary K) :=
  if featLabels.length = n then
    .ok
      { rows := ["Z_{1}", "Z_{2}"],
        columns := featLabels.zip (List.ofFn fun j => [a 0 j, a 1 j]) }
  else .error .valueError

/-- `pilot`, pilot.py:175-330. -/
def pilot (lib : Lib K p n q) (x : Matrix (Fin p) (Fin n) K) (y : Matrix (Fin p) (Fin q) K)
    (featLabels : List String) (opts : Options K n q) : Except Err (Out K p n q) :=
  let xbar := xBar x y
  if opts.analytic then
    match analyticSolve lib x xbar with
    | .error e => .error e
    | .ok s =>
        match summary s.a featLabels with
        | .error e => .error e
        | .ok t =>
            .ok
              { x0 := none, alpha := none, eoptim := none, perf := none, a := s.a, z := s.z,
                cCols := q, c := s.c, b := s.b, error := s.error, r2 := s.r2, summary := t }
  else if opts.alpha.any fun al => decide (al.1 = (len n q, 1)) then
    -- `idx` is never assigned on this path, pilot.py:264
    .error .unboundLocal
  else
    let x0 := opts.x0.getD (lib.starts opts.nTries)
    match numericalSolve lib x xbar x0 opts.nTries with
    | .error e => .error e
    | .ok s =>
        match s.alpha[s.idx]? with
        | none => .error .indexError
        | some alpha =>
            let a := aOf alpha
            let z := x * a.transpose
            let b := bOf alpha
            let xhat := z * b.transpose
            match summary a featLabels with
            | .error e => .error e
            | .ok t =>
                .ok
                  { x0 := some x0, alpha := some (s.alpha.map fun al i => lib.half (al i)),
                    eoptim := some s.eoptim, perf := some s.perf, a, z, cCols := q - 1,
                    c := fun k j => b ⟨n + 1 + j, by omega⟩ k,
                    b := fun i => b (Fin.castAdd q i),
                    error := sumSquares xbar xhat,
                    r2 := List.ofFn (fun i => sqCorr (xbar i) (xbar i)) ++
                      List.ofFn (fun i => sqCorr (xhat i) (xhat i)),
                    summary := t }

end Verif.Pilot
