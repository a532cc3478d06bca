import Verif.Num
/-!
# Model of `instancespace/stages/pythia.py`

Training and cross validation (scikit-learn, scikit-optimize) are a parameter: what `_fitmatsvm`
returns for each algorithm.  Measures are exact rationals, performances `Verif.Num`.  A matrix is a
list of rows.  The z-score is in `Verif.Pythia.Znorm`.  Printing and timing are not modelled.
-/
set_option autoImplicit false

namespace Verif.Pythia

open Verif (Num)

/-- Exceptions of Python that can leave the stage, pythia.py:284-884. -/
inductive Err
  | valueError | indexError | typeError
  deriving DecidableEq, Repr

/-- `np.argmax` of the rest of a row: `k` is the position of the first largest value `a` so far,
`i` the position of the next element; pythia.py:707, 720. -/
def argmaxFrom : Nat → ℚ → Nat → List ℚ → Nat
  | k, _, _, [] => k
  | k, a, i, b :: l => if a < b then argmaxFrom i b (i + 1) l else argmaxFrom k a (i + 1) l

/-- `np.argmax` of a row, `none` for the `ValueError` on an empty one; pythia.py:707, 720. -/
def argmax : List ℚ → Option Nat
  | [] => none
  | a :: l => some (argmaxFrom 0 a 1 l)

/-- `np.max` of a row, pythia.py:718. -/
def maxFrom : ℚ → List ℚ → ℚ
  | a, [] => a
  | a, b :: l => maxFrom (if a < b then b else a) l

/-- Column `j` of a boolean matrix, e.g. `y_bin[:, i]`, pythia.py:414, 432. -/
def column {α : Type} (d : α) (m : List (List α)) (j : Nat) : List α := m.map fun r => r.getD j d

/-- `np.mean(y_bin, axis=0)`, pythia.py:707, 848.  Without instances the means are NaN in numpy and
0 here; there are then no selections either. -/
def goodMeans (nalgos : Nat) (yBin : List (List Bool)) : List ℚ :=
  (List.range nalgos).map fun j => ((column false yBin j).count true : ℚ) / yBin.length

/-- A row of `y_hat * precision_array[np.newaxis, :]`, pythia.py:716. -/
def weighted (precision : List ℚ) (row : List Bool) : List ℚ :=
  row.zipWith (fun b p => if b then p else 0) precision

/-- `selection0` and `selection1`: one number per instance, or, with a single algorithm, a matrix
with one column (`y_hat` keeps its two axes, pythia.py:722-723). -/
inductive Sel
  | flat (l : List Nat)
  | matrix (l : List Nat)
  deriving DecidableEq, Repr

/-- The numbers of a selection, in order; pythia.py:728. -/
def Sel.vals : Sel → List Nat
  | .flat l => l
  | .matrix l => l

/-- `_determine_selections` for one instance and more than one algorithm, pythia.py:715-727:
the entries of `selection0` and `selection1`. -/
def selectRow (precision : List ℚ) (default : Nat) (row : List Bool) : Nat × Nat :=
  match weighted precision row with
  | [] => (0, default)
  | a :: l =>
    if maxFrom a l ≤ 0 then (0, default) else (argmaxFrom 0 a 1 l, argmaxFrom 0 a 1 l)

/-- `_determine_selections`, pythia.py:705-728. -/
def determineSelections (nalgos : Nat) (precision : List ℚ) (yHat yBin : List (List Bool)) :
    Except Err (Sel × Sel) :=
  match argmax (goodMeans nalgos yBin) with
  | none => .error .valueError
  | some default =>
    if 1 < nalgos then
      .ok (.flat (yHat.map fun r => (selectRow precision default r).1),
        .flat (yHat.map fun r => (selectRow precision default r).2))
    else
      .ok (.matrix (yHat.map fun r => if r.getD 0 false then 1 else 0),
        .matrix (yHat.map fun r => if r.getD 0 false then 1 else default))

/-! ### The measures, pythia.py:432-439 -/

/-- The number of instances with the given label and prediction; pythia.py:432. -/
def cells (truth pred : List Bool) (t p : Bool) : Nat := ((truth.zip pred).filter (· = (t, p))).length

/-- `tn, fp, fn, tp = confusion_matrix(y_bin[:, i], res.Ysub).ravel()`, pythia.py:432-433: the
matrix has a row for every label that occurs, so the unpacking fails when only one occurs. -/
def confusion (truth pred : List Bool) : Except Err (List Nat) :=
  if (true ∈ truth ∨ true ∈ pred) ∧ (false ∈ truth ∨ false ∈ pred) then
    .ok [cells truth pred false false, cells truth pred false true,
      cells truth pred true false, cells truth pred true true]
  else .error .valueError

/-- `accuracy_score`, pythia.py:435. -/
def accuracyScore (truth pred : List Bool) : ℚ :=
  ((cells truth pred true true + cells truth pred false false : Nat) : ℚ) / truth.length

/-- `precision_score`, 0 when nothing is predicted good; pythia.py:436, 831. -/
def precisionScore (truth pred : List Bool) : ℚ :=
  (cells truth pred true true : ℚ) / ((cells truth pred true true + cells truth pred false true : Nat) : ℚ)

/-- `recall_score`, 0 when nothing is good; pythia.py:437, 834. -/
def recallScore (truth pred : List Bool) : ℚ :=
  (cells truth pred true true : ℚ) / ((cells truth pred true true + cells truth pred true false : Nat) : ℚ)

/-! ### Hyper-parameters -/

/-- A value of `param_space`: a list of candidates or a single number, pythia.py:407-411. -/
inductive Space
  | candidates (l : List ℚ)
  | number (q : ℚ)

/-- `_check_precalcparams`, pythia.py:675-683: a matrix, given by its rows and its number of
columns, is used when its shape is `(nalgos, 2)`. -/
def checkParams (params : Option (List (List ℚ) × Nat)) (nalgos : Nat) : Option (List (List ℚ)) :=
  match params with
  | none => none
  | some (rows, cols) => if rows.length = nalgos ∧ cols = 2 then some rows else none

/-- `param_space` for algorithm `i`, pythia.py:407-411; `gen i` are the values made by
`_generate_params`. -/
def paramSpace (gen : Nat → List ℚ × List ℚ) (precalc : Option (List (List ℚ))) (i : Nat) :
    Space × Space :=
  match precalc with
  | none => (.candidates (gen i).1, .candidates (gen i).2)
  | some rows => (.number ((rows.getD i []).getD 0 0), .number ((rows.getD i []).getD 1 0))

/-- The result of `_fitmatsvm` without the trained machine; `_SvmRes`, pythia.py:596-604. -/
structure SvmRes where
  yHat : List Bool
  ySub : List Bool
  pSub : List ℚ
  pHat : List ℚ
  c : ℚ
  g : ℚ
  deriving DecidableEq

/-- `_fitmatsvm`, pythia.py:550-604: the searches accept only lists of candidates (for a single number
`RandomizedSearchCV` raises a `TypeError` and `BayesSearchCV` a `ValueError`), and what they return is the
parameter `svm`; `grid` is `use_grid_search`. -/
def fit (grid : Bool) (svm : Nat → List ℚ → List ℚ → Except Err SvmRes) (i : Nat) :
    Space × Space → Except Err SvmRes
  | (.candidates cs, .candidates gs) => svm i cs gs
  | _ => .error (if grid then .typeError else .valueError)

/-! ### The training loop, pythia.py:405-442 -/

/-- The arrays and lists filled by the loop, pythia.py:329-342. -/
structure Trained where
  ySub : List (List Bool)
  yHat : List (List Bool)
  pr0sub : List (List ℚ)
  pr0hat : List (List ℚ)
  cvcmat : List (List Nat)
  boxConsnt : List ℚ
  kScale : List ℚ
  accuracy : List ℚ
  precision : List ℚ
  recall : List ℚ
  deriving DecidableEq

/-- `m[:, [i]] = col.reshape(-1, 1)`, pythia.py:424-427; the column has one entry per row. -/
def setCol {α : Type} (m : List (List α)) (i : Nat) (col : List α) : List (List α) :=
  m.zipWith (fun r v => r.set i v) col

/-- The state before the loop, pythia.py:329-342. -/
def start (ninst nalgos : Nat) : Trained where
  ySub := List.replicate ninst (List.replicate nalgos false)
  yHat := List.replicate ninst (List.replicate nalgos false)
  pr0sub := List.replicate ninst (List.replicate nalgos 0)
  pr0hat := List.replicate ninst (List.replicate nalgos 0)
  cvcmat := List.replicate nalgos (List.replicate 4 0)
  boxConsnt := []
  kScale := []
  accuracy := []
  precision := []
  recall := []

/-- One round of the loop, pythia.py:424-442; `truth` is `y_bin[:, i]`. -/
def record (truth : List Bool) (i : Nat) (res : SvmRes) (t : Trained) : Except Err Trained :=
  match confusion truth res.ySub with
  | .error e => .error e
  | .ok cm => .ok {
      ySub := setCol t.ySub i res.ySub
      pr0sub := setCol t.pr0sub i res.pSub
      yHat := setCol t.yHat i res.yHat
      pr0hat := setCol t.pr0hat i res.pHat
      boxConsnt := t.boxConsnt ++ [res.c]
      kScale := t.kScale ++ [res.g]
      cvcmat := t.cvcmat.set i cm
      accuracy := t.accuracy ++ [accuracyScore truth res.yHat]
      precision := t.precision ++ [precisionScore truth res.yHat]
      recall := t.recall ++ [recallScore truth res.yHat] }

/-- The loop over the algorithms, pythia.py:405-442. -/
def train (fitted : Nat → Except Err SvmRes) (yBin : List (List Bool)) :
    List Nat → Trained → Except Err Trained
  | [], t => .ok t
  | i :: is, t =>
    match fitted i with
    | .error e => .error e
    | .ok res =>
      match record (column false yBin i) i res t with
      | .error e => .error e
      | .ok t => train fitted yBin is t

/-! ### The summary table, pythia.py:756-884 -/

/-- `selection[:, np.newaxis] == np.arange(1, nalgos + 1)` for a flat selection; pythia.py:805-806. -/
def selMatrix (nalgos : Nat) (sel : List Nat) : List (List Bool) :=
  sel.map fun s => (List.range nalgos).map fun j => decide (s = j + 1)

/-- `y[~mask] = np.nan`, pythia.py:820-822. -/
def blank (y : List (List Num)) (mask : List (List Bool)) : List (List Num) :=
  y.zipWith (fun r m => r.zipWith (fun v b => if b then v else .nan) m) mask

/-- `np.nanmean` of a list, pythia.py:382, 809, 840, 853. -/
def nanmean (l : List Num) : Num :=
  let vs := l.filter fun v => !v.isNan
  vs.foldl (· + ·) 0 / .fin vs.length

/-- The table, pythia.py:837-879, column by column.  Missing entries are NaN (they are replaced by
empty strings, line 881). -/
structure Summary where
  algorithms : List String
  avgPerf : List Num
  stdPerf : List Num
  probGood : List Num
  avgSelected : List Num
  stdSelected : List Num
  accuracy : List Num
  precision : List Num
  recall : List Num
  boxConstraint : List Num
  kernelScale : List Num
  deriving DecidableEq

/-- The numeric library functions used by the summary: `np.round(·, 3)` and the square root in `np.nanstd`;
pythia.py:809-810, 839-878. -/
structure Lib where
  round3 : Num → Num
  sqrt : Num → Num

/-- `np.nanstd` of a list, pythia.py:810, 844, 862: the square root of the mean squared deviation of the
values that are not NaN. -/
def Lib.nanstd (lib : Lib) (l : List Num) : Num :=
  let vs := l.filter fun v => !v.isNan
  lib.sqrt ((vs.map fun v => (v - nanmean l) * (v - nanmean l)).foldl (· + ·) 0 / .fin vs.length)

/-- Row means of a boolean matrix: `np.mean(np.any(np.logical_and(y_bin, sel1), axis=1))`,
pythia.py:825. -/
def pgood (yBin sel : List (List Bool)) : ℚ :=
  let hits := yBin.zipWith (fun r s => (r.zipWith (· && ·) s).any id) sel
  (hits.count true : ℚ) / hits.length

/-- `_generate_summary`, pythia.py:804-884.  The parameters have the order of the code (765-767:
precision before accuracy).  A selection that is a matrix makes `sel0` three dimensional, and
`y[~sel0]` (820) raises an `IndexError`.  The second component is the array `y` of the caller after
the call (line 820 writes into it). -/
def generateSummary (lib : Lib) (nalgos : Nat) (labels : List String) (y : List (List Num))
    (yHat yBin : List (List Bool)) (yBest : List Num) (selection0 selection1 : Sel)
    (precision accuracy recall boxConsnt kScale : List ℚ) :
    Except Err (Summary × List (List Num)) :=
  match selection0, selection1 with
  | .flat s0, .flat s1 =>
    let sel0 := selMatrix nalgos s0
    let sel1 := selMatrix nalgos s1
    let cols := fun (m : List (List Num)) => (List.range nalgos).map (column .nan m)
    let r := lib.round3
    let yFull := blank y sel1
    let ySvms := blank y yHat
    .ok ({
      algorithms := labels ++ ["Oracle", "Selector"]
      avgPerf := ((cols y).map (fun c => r (nanmean c)) ++
        [nanmean yBest, nanmean yFull.flatten]).map r
      stdPerf := ((cols y).map (fun c => r (lib.nanstd c)) ++
        [lib.nanstd yBest, lib.nanstd yFull.flatten]).map r
      probGood := ((goodMeans nalgos yBin).map Num.fin ++ [(1 : Num), Num.fin (pgood yBin sel1)]).map r
      avgSelected := ((cols ySvms).map nanmean ++ [Num.nan, nanmean yFull.flatten]).map r
      stdSelected := ((cols ySvms).map lib.nanstd ++ [Num.nan, lib.nanstd yFull.flatten]).map r
      accuracy := (accuracy.map (fun q => Num.fin (100 * q)) ++ [Num.nan, Num.nan]).map r
      precision := (precision.map (fun q => Num.fin (100 * q)) ++
        [Num.nan, Num.fin (100 * precisionScore yBin.flatten sel0.flatten)]).map r
      recall := (recall.map (fun q => Num.fin (100 * q)) ++
        [Num.nan, Num.fin (100 * recallScore yBin.flatten sel0.flatten)]).map r
      boxConstraint := (boxConsnt.map Num.fin ++ [Num.nan, Num.nan]).map r
      kernelScale := (kScale.map Num.fin ++ [Num.nan, Num.nan]).map r },
      blank y sel0)
  | _, _ => .error .indexError

/-- What `pythia` returns, without `mu`, `sigma`, the folds and the machines; pythia.py:492-511. -/
structure Out where
  trained : Trained
  selection0 : Sel
  selection1 : Sel
  summary : Summary
  /-- the array passed as `y`, after the call -/
  yAfter : List (List Num)

/-- `pythia` after the normalisation, pythia.py:326-342 and 405-511; `fitted i` is the result of
`_fitmatsvm` for algorithm `i`.  The accuracies are passed where `_generate_summary` expects the
precisions and vice versa (485-486). -/
def pythia (lib : Lib) (nalgos : Nat) (labels : List String) (y : List (List Num))
    (yBin : List (List Bool)) (yBest : List Num) (fitted : Nat → Except Err SvmRes) :
    Except Err Out :=
  match train fitted yBin (List.range nalgos) (start yBin.length nalgos) with
  | .error e => .error e
  | .ok t =>
    match determineSelections nalgos t.precision t.yHat yBin with
    | .error e => .error e
    | .ok (s0, s1) =>
      match generateSummary lib nalgos labels y t.yHat yBin yBest s0 s1
          t.accuracy t.precision t.recall t.boxConsnt t.kScale with
      | .error e => .error e
      | .ok (summary, yAfter) =>
        .ok { trained := t, selection0 := s0, selection1 := s1, summary, yAfter }

/-! ### Weights, pythia.py:380-387 -/

/-- `np.abs`, pythia.py:382. -/
def absNum : Num → Num
  | .nan => .nan
  | .ninf => .pinf
  | .pinf => .pinf
  | .fin q => .fin (if q < 0 then -q else q)

/-- `np.min` of a non-empty list: NaN as soon as one value is NaN; pythia.py:383. -/
def minOf : Num → List Num → Num
  | a, [] => a
  | a, b :: l => minOf (if a.isNan then a else if b.isNan then b else if b.lt a then b else a) l

/-- `np.max` of a non-empty list of values without NaN; pythia.py:384. -/
def maxOf : Num → List Num → Num
  | a, [] => a
  | a, b :: l => maxOf (if a.lt b then b else a) l

/-- The weights of all entries of `y` (flattened, row by row) with cost-sensitive classification,
pythia.py:382-384; the `ValueError` is raised by `np.min` and `np.max` of nothing. -/
def weights (y : List Num) : Except Err (List Num) :=
  let m := nanmean y
  let w := y.map fun v => absNum (v - m)
  match w.filter fun v => !v.eq 0 with
  | [] => .error .valueError
  | a :: l =>
    let low := minOf a l
    let w := w.map fun v => if v.eq 0 then low else v
    match w.filter fun v => !v.isNan with
    | [] => .error .valueError
    | b :: k =>
      let high := maxOf b k
      .ok (w.map fun v => if v.isNan then high else v)

end Verif.Pythia
