import Verif.Num
import Verif.Filter.Model
/-!
# Model of `instancespace/stages/prelim.py`

Numbers are `Verif.Num` (exact, with NaN and infinities, no negative zero).  The performance
part works on each instance separately and is modelled on a row of performances; a matrix is a
list of rows.  Printing is not modelled.
-/
set_option autoImplicit false

namespace Verif.Prelim

open Verif (Num)

/-- The options used here: `PrelimOptions`, data/options.py:721-729. -/
structure Opts where
  maxPerf : Bool
  absPerf : Bool
  epsilon : Num
  betaThreshold : Num
  bound : Bool
  norm : Bool

/-- Is `a` strictly better than `b`?  The comparison inside `np.max`/`np.argmax`
(prelim.py:623-625) and `np.min`/`np.argmin` (647-649). -/
def better (maxPerf : Bool) (a b : Num) : Bool := if maxPerf then Num.lt b a else Num.lt a b

/-- `y_aux`: missing values become the worst value, prelim.py:620-621, 644-645. -/
def aux (maxPerf : Bool) (v : Num) : Num :=
  if v.isNan then (if maxPerf then .ninf else .pinf) else v

/-- `np.max(y_aux, axis=1)` / `np.min(...)` of a row, prelim.py:623, 647.  `y_aux` has no NaN, so
the propagation of NaN is left out. -/
def extreme (maxPerf : Bool) : Num → List Num → Num
  | a, [] => a
  | a, b :: l => extreme maxPerf (if better maxPerf b a then b else a) l

/-- `np.argmax` / `np.argmin` of a row: the position of the first extreme value; `i` is the
position of the next element, `k` of the best so far.  prelim.py:625, 649. -/
def argExtreme (maxPerf : Bool) : Nat → Num → Nat → List Num → Nat
  | k, _, _, [] => k
  | k, a, i, b :: l =>
    if better maxPerf b a then argExtreme maxPerf i b (i + 1) l
    else argExtreme maxPerf k a (i + 1) l

/-- `y_best[y_best == 0] = eps`, done in the relative case only; prelim.py:631, 655. -/
def fixZero (v : Num) : Num := if v.eq 0 then .fin Num.eps else v

/-- One row of `y_bin`, given `y_aux` and the final `y_best`; prelim.py:628, 634, 652, 658. -/
def good (o : Opts) (best v : Num) : Bool :=
  match o.maxPerf, o.absPerf with
  | true, true => Num.le o.epsilon v
  | true, false => Num.le (1 - v / best) o.epsilon
  | false, true => Num.le v o.epsilon
  | false, false => Num.le (1 - best / v) o.epsilon

/-- What `_prelim` computes for one instance, prelim.py:66-154. -/
structure Row where
  yBin : List Bool
  yBest : Num
  p : Nat
  numGood : Nat
  beta : Bool
  /-- the local array `y` (line 633 or 657) -/
  y : List Num
  /-- the array object passed in, after the assignments of lines 632 and 656 -/
  yIn : List Num
  deriving DecidableEq, Repr

/-- Position of the first `true`, `aux[0]` of prelim.py:415-418. -/
def firstTrue (l : List Bool) : Nat := l.idxOf true

/-- `_prelim` (prelim.py:610-664) and `_select_best_algorithms` (405-434) for one instance.
`none` is the `ValueError` of `np.max` on an empty row (no algorithms). -/
def rowStep (o : Opts) (row : List Num) : Option Row :=
  match row.map (aux o.maxPerf) with
  | [] => none
  | a :: l =>
    let best0 := extreme o.maxPerf a l
    let p0 := argExtreme o.maxPerf 0 a 1 l + 1
    let best := if o.absPerf then best0 else fixZero best0
    let yIn := if o.absPerf then row else row.map fixZero
    let y := if o.absPerf then row
      else yIn.map fun v => if o.maxPerf then 1 - v / best else 1 - best / v
    let yBin := (a :: l).map (good o best)
    let ties := row.map fun v => v.eq best
    let p := if 1 < ties.count true then firstTrue ties + 1 else p0
    let numGood := yBin.count true
    some { yBin, yBest := best, p, numGood, y, yIn
           beta := Num.lt (o.betaThreshold * .fin row.length) (.fin numGood) }

/-- All instances, prelim.py:610-675. -/
def rows (o : Opts) : List (List Num) → Option (List Row)
  | [] => some []
  | r :: rs =>
    match rowStep o r with
    | none => none
    | some r =>
      match rows o rs with
      | none => none
      | some rs => some (r :: rs)

/-! ### Bounds, prelim.py:448-460 and 677-680 -/

/-- `np.median` of a finite column given its sorted values, prelim.py:448, 677. -/
def median (sorted : List ℚ) : ℚ :=
  (sorted.getD ((sorted.length - 1) / 2) 0 + sorted.getD (sorted.length / 2) 0) / 2

/-- The percentile `k/4` with `interpolation="midpoint"`: the mean of the values at the floor and
the ceiling of the exact position, prelim.py:450, 678. -/
def quartile (k : Nat) (sorted : List ℚ) : ℚ :=
  (sorted.getD (k * (sorted.length - 1) / 4) 0 +
    sorted.getD ((k * (sorted.length - 1) + 3) / 4) 0) / 2

/-- `hi_bound` and `lo_bound` of a finite column, prelim.py:448-453. -/
def bounds (col : List ℚ) : ℚ × ℚ :=
  let s := col.mergeSort (fun a b => decide (a ≤ b))
  let iqr := quartile 3 s - quartile 1 s
  (median s - 5 * iqr, median s + 5 * iqr)

/-- A boolean used as a number, prelim.py:458-460. -/
def ofBool (b : Bool) : Num := if b then 1 else 0

/-- The new value of one entry, prelim.py:455-460. -/
def boundEntry (lo hi v : Num) : Num :=
  let hiMask := Num.lt hi v
  let loMask := Num.lt v lo
  v * ofBool (!(hiMask || loMask)) + ofBool hiMask * hi + ofBool loMask * lo

/-- All entries are finite numbers, or there is a NaN or an infinity (the case distinction scipy makes in
the calls at prelim.py:544-551 and 561-568). -/
def finites : List Num → Option (List ℚ)
  | [] => some []
  | .fin q :: l => (finites l).map (q :: ·)
  | _ :: _ => none

/-- `lo_bound` and `hi_bound` of a column, prelim.py:448-453.  A NaN in the column makes both NaN
(`np.median` and `stats.iqr` propagate it); a column with an infinity but no NaN is not
modelled, `junk` stands for whatever comes out. -/
def boundsOf (junk : Num × Num) (col : List Num) : Num × Num :=
  match finites col with
  | some qs => let b := bounds qs; (.fin b.1, .fin b.2)
  | none => if col.any Num.isNan then (.nan, .nan) else junk

/-- `_bound` on one column, prelim.py:436-468. -/
def boundCol (junk : Num × Num) (col : List Num) : List Num :=
  let b := boundsOf junk col
  col.map (boundEntry b.1 b.2)

/-! ### Normalisation, prelim.py:535-568 -/

/-- `np.min`, which propagates NaN; prelim.py:538, 553. -/
def npMin : Num → List Num → Num
  | a, [] => a
  | a, b :: l =>
    npMin (if a.isNan then .nan else if b.isNan then .nan else if Num.lt b a then b else a) l

/-- `self.x[~idx, i] = aux`: write the transformed values back at the places that are not NaN,
prelim.py:551, 568. -/
def refill : List Num → List Num → List Num
  | [], _ => []
  | v :: l, ts =>
    if v.isNan then v :: refill l ts
    else
      match ts with
      | [] => v :: refill l []
      | t :: ts => t :: refill l ts

/-- prelim.py:544-551 and 561-568 on one shifted column; `tr` is Box-Cox followed by the z-score. -/
def transform (tr : List Num → List Num) (col : List Num) : List Num :=
  refill col (tr (col.filter fun v => !v.isNan))

/-- Normalising one feature column, prelim.py:538-551; `[]` raises in numpy and is left alone. -/
def normX (tr : List Num → List Num) : List Num → List Num
  | [] => []
  | a :: l => transform tr ((a :: l).map fun v => v - npMin a l + 1)

/-- Normalising all performance columns, prelim.py:553-568: the minimum is over all columns. -/
def normY (tr : List Num → List Num) (cols : List (List Num)) : List (List Num) :=
  match cols.flatten with
  | [] => cols
  | a :: l => cols.map fun c => transform tr (c.map fun v => v - npMin a l + .fin Num.eps)

/-- The feature columns returned by `_prelim`, prelim.py:682-684, 701-703. -/
def outX (o : Opts) (junk : Num × Num) (tr : List Num → List Num) (cols : List (List Num)) :
    List (List Num) :=
  let cols := if o.bound then cols.map (boundCol junk) else cols
  if o.norm then cols.map (normX tr) else cols

/-- The columns of a matrix given by rows; `self.y[:, i]`, prelim.py:562. -/
def columns (nalgos : Nat) (ys : List (List Num)) : List (List Num) :=
  (List.range nalgos).map fun j => ys.map fun r => r.getD j .nan

/-- The performance columns returned by `_prelim`: the local `y`, or with normalisation the
normalised `self.y`, which is the array passed in (prelim.py:197, 553-568, 708); `none` when
`np.max` raises. -/
def outY (o : Opts) (tr : List Num → List Num) (nalgos : Nat) (ys : List (List Num)) :
    Option (List (List Num)) :=
  (rows o ys).map fun outs =>
    if o.norm then normY tr (columns nalgos (outs.map Row.yIn))
    else columns nalgos (outs.map Row.y)

/-! ### Aliasing, prelim.py:238-287 -/

/-- Array objects by address.  The inputs `y` and `y_raw` of the stage are references; they are
the same object when PRELIM runs after preprocessing (preprocessing.py:179-188), since the deep
copy of stage_runner.py:155 preserves sharing. -/
abbrev Arrs := Nat → List (List Num)

/-- What `_prelim` does to the array objects: `y[y == 0] = eps` in the relative case,
prelim.py:632, 656.  `y.copy()` (610, 620, 644) and the arithmetic make new objects, which are
not tracked; no other object is written. -/
def afterPrelim (o : Opts) (heap : Arrs) (y : Nat) : Arrs :=
  if o.absPerf then heap
  else fun r => if r = y then (heap y).map fun row => row.map fixZero else heap r

/-- The `y_raw` output before subsetting: the object passed in, read after `_prelim` ran;
prelim.py:281. -/
def yRawOut (o : Opts) (heap : Arrs) (y yRaw : Nat) : List (List Num) :=
  afterPrelim o heap y yRaw

end Verif.Prelim
