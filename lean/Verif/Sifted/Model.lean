import Verif.Num
/-!
# Model of `instancespace/stages/sifted.py`

The feature matrix is the list of its columns (of any type `α`); a column is only moved, never
changed.  Parameters: Pearson's correlation, `np.argsort`, k-means, the silhouette score, the
genetic search and the score of a set of features (PILOT and nearest neighbours).  The random
generator is part of these parameters.  Printing is not modelled.
-/
set_option autoImplicit false

namespace Verif.Sifted

open Verif (Num)

/-- Exceptions of Python that can leave the stage, sifted.py:397-1058. -/
inductive Err
  | notEnoughFeatures | indexError | keyError | zeroDivision | valueError | typeError
  deriving DecidableEq, Repr

/-! ### Correlation with performance -/

/-- The pairs of values that are both present, sifted.py:1046 and 1050-1053. -/
def validPairs (x y : List Num) : List (Num × Num) := (x.zip y).filter fun q => !q.1.isNan && !q.2.isNan

/-- `_compute_correlation`, sifted.py:1034-1058: coefficient and p-value for every feature (row)
and algorithm (column).  `scipy.stats.pearsonr` raises a `ValueError` for a single pair; with no
pair it is not called (1048, 1056). -/
def correlation (pearson : List (Num × Num) → Num × Num) (xs ys : List (List Num)) :
    Except Err (List (List (Num × Num))) :=
  if xs.any fun x => ys.any fun y => (validPairs x y).length == 1 then .error .valueError
  else .ok (xs.map fun x => ys.map fun y =>
    if (validPairs x y).isEmpty then (.nan, .nan) else pearson (validPairs x y))

/-- `rho` after line 745: missing and insignificant coefficients (p-value above 0.05) are 0;
sifted.py:741-745. -/
def significant (corr : List (List (Num × Num))) : List (List Num) :=
  corr.map fun r => r.map fun q =>
    if q.1.isNan || Num.lt (.fin (1 / 20)) q.2 then 0 else q.1

/-- `np.abs`, sifted.py:746. -/
def absNum : Num → Num
  | .nan => .nan
  | .ninf => .pinf
  | .pinf => .pinf
  | .fin q => .fin |q|

/-- Entry of a matrix given by rows, e.g. `rho[i, j]`, sifted.py:755-760. -/
def entry (m : List (List Num)) (i j : Nat) : Num := (m.getD i []).getD j .nan

/-- Column `j` of `-filtered_rho`, sifted.py:746-749. -/
def negAbsColumn (rho : List (List Num)) (j : Nat) : List Num :=
  rho.map fun r => -(absNum (r.getD j .nan))

/-- `mask[is] = True`, sifted.py:756, 760, 833, 940. -/
def mark (mask : List Bool) (is : List Nat) : List Bool := is.foldl (fun m i => m.set i true) mask

/-- `np.where(mask)[0]`, sifted.py:763, 831, 938. -/
def whereTrue (mask : List Bool) : List Nat := (List.range mask.length).filter fun i => mask.getD i false

/-- `row[i, j]` with `row = np.argsort(-filtered_rho, axis=0)`, sifted.py:749. -/
def ranked (argsort : List Num → List Nat) (rho : List (List Num)) (i j : Nat) : Nat :=
  (argsort (negAbsColumn rho j)).getD i 0

/-- `row[i, rho[i, :] >= self.opts.rho]`, sifted.py:760: the features ranked `i` for the algorithms
whose correlation with *feature* `i` reaches the threshold. -/
def reached (argsort : List Num → List Nat) (rho : List (List Num)) (thr : Num) (nalgos i : Nat) :
    List Nat :=
  ((List.range nalgos).filter fun j => Num.le thr (entry rho i j)).map (ranked argsort rho i)

/-- `select_features_by_performance`, sifted.py:738-763, without the slicing of `x`: the selected
features. -/
def selectByPerformance (argsort : List Num → List Nat) (rho : List (List Num)) (thr : Num)
    (nfeats nalgos : Nat) : List Nat :=
  let mask := mark (List.replicate nfeats false) ((List.range nalgos).map (ranked argsort rho 0))
  whereTrue ((List.range nfeats).foldl (fun m i => mark m (reached argsort rho thr nalgos i)) mask)

/-- What `select_features_by_performance` returns without `x_aux`, sifted.py:765. -/
structure Performance where
  rho : List (List Num)
  pval : List (List Num)
  selvars : List Nat
  deriving DecidableEq

/-- `select_features_by_performance`, sifted.py:738-765, from the columns of `self.x` and `self.y`.
`filtered_rho` is the array `rho` itself (744), so the returned `rho` is the one of `significant`. -/
def selectFeatures (argsort : List Num → List Nat) (pearson : List (Num × Num) → Num × Num)
    (xs ys : List (List Num)) (thr : Num) : Except Err Performance :=
  match correlation pearson xs ys with
  | .error e => .error e
  | .ok corr => .ok {
      rho := significant corr
      pval := corr.map fun r => r.map (·.2)
      selvars := selectByPerformance argsort (significant corr) thr xs.length ys.length }

/-! ### Clusters -/

/-- `np.argmax` of the scores, first largest; sifted.py:997. -/
def argmaxFrom : Nat → ℚ → Nat → List ℚ → Nat
  | k, _, _, [] => k
  | k, a, i, b :: l => if a < b then argmaxFrom i b (i + 1) l else argmaxFrom k a (i + 1) l

/-- `evaluate_cluster`, sifted.py:973-1011, for `n` features and `k` clusters: the scores and the
labels for `k`.  `score c` is the silhouette score and `labels c` the clustering with `c` clusters.
The message of lines 1000-1004 reads `silhouette_scores` at the number of clusters. -/
def evaluateCluster (score : Nat → ℚ) (labels : Nat → List Nat) (n k : Nat) :
    Except Err (List ℚ × List Nat) :=
  let cs := (List.range (n - 2)).map (· + 2)
  match cs.map score with
  | [] => .error .valueError
  | a :: l =>
    let best := 2 + argmaxFrom 0 a 1 l
    if best ≠ k ∧ best ≠ n ∧ (a :: l).length ≤ best then .error .indexError
    else if k ∈ cs then .ok (a :: l, labels k) else .error .keyError

/-- `clust`, sifted.py:798-801: one row per feature of `x_aux`, one column per cluster. -/
def clustOf (labels : List Nat) (k : Nat) : List (List Bool) :=
  labels.map fun l => (List.range k).map fun c => decide (l = c)

/-- The features (positions in `x_aux`) in cluster `c`: `np.where(clust[:, i])[0]`,
sifted.py:799-801, 831, 938. -/
def members (labels : List Nat) (c : Nat) : List Nat :=
  whereTrue (labels.map fun l => decide (l = c))

/-- `aux[value % aux.size]`, sifted.py:832, 939; `none` for an empty cluster. -/
def choose (labels : List Nat) (c : Nat) (value : Int) : Option Nat :=
  let aux := members labels c
  aux[(value % (aux.length : Int)).toNat]?

/-- The loop of `cost_fcn`, sifted.py:828-833: `idx` has one entry per feature of `self.x`.  For an
empty cluster numpy computes `value % 0 = 0` and indexing fails. -/
def costMask (labels : List Nat) : Nat → List Int → List Bool → Except Err (List Bool)
  | _, [], mask => .ok mask
  | c, v :: vs, mask =>
    match choose labels c v with
    | none => .error .indexError
    | some f => if f < mask.length then costMask labels (c + 1) vs (mask.set f true)
      else .error .indexError

/-- The features of `self.x` that `cost_fcn` evaluates, sifted.py:828-836. -/
def costFeatures (labels : List Nat) (nfeats : Nat) (solution : List Int) : Except Err (List Nat) :=
  match costMask labels 0 solution (List.replicate nfeats false) with
  | .error e => .error e
  | .ok mask => .ok (whereTrue mask)

/-- `cost_fcn`, sifted.py:828-857: `err features j` is the mean squared error of the classifier for
algorithm `j` on the plane made from the features. -/
def cost (err : List Nat → Nat → ℚ) (nalgos : Nat) (labels : List Nat) (nfeats : Nat)
    (solution : List Int) : Except Err (Option ℚ) :=
  match costFeatures labels nfeats solution with
  | .error e => .error e
  | .ok fs => .ok ((List.range nalgos).foldl (fun y j => match y with
      | none => some (err fs j)
      | some v => some (max v (err fs j))) none)

/-- The decoding loop, sifted.py:936-940. -/
def decodeMask (labels : List Nat) (best : List Int) : List Nat → List Bool → Except Err (List Bool)
  | [], mask => .ok mask
  | c :: cs, mask =>
    match best[c]? with
    | none => .error .indexError
    | some v =>
      match choose labels c v with
      | none => .error .zeroDivision
      | some f => decodeMask labels best cs (mask.set f true)

/-- `np.array(selvars)[decoder]`, sifted.py:942. -/
def maskPick {α : Type} : List α → List Bool → List α
  | a :: l, b :: m => if b then a :: maskPick l m else maskPick l m
  | _, _ => []

/-- Decoding a chromosome, sifted.py:936-942: the selected features. -/
def decode (labels : List Nat) (k : Nat) (selvars : List Nat) (best : List Int) :
    Except Err (List Nat) :=
  match decodeMask labels best (List.range k) (List.replicate selvars.length false) with
  | .error e => .error e
  | .ok mask => .ok (maskPick selvars mask)

/-! ### The stage -/

/-- Library functions and the genetic search; the calls are at sifted.py:749, 796, 835, 892, 985 and 988. -/
structure Lib where
  argsort : List Num → List Nat
  /-- silhouette score of the clustering of the given features in `c` clusters, sifted.py:988 -/
  silhouette : List Nat → Nat → ℚ
  /-- labels in `evaluate_cluster`, sifted.py:985 -/
  evalLabels : List Nat → Nat → List Nat
  /-- labels in `select_features_by_clustering`, sifted.py:796 -/
  kmeans : List Nat → Nat → List Nat
  /-- error of a classifier, sifted.py:835-855 -/
  err : List Nat → Nat → ℚ
  /-- `ga_instance.run()` and `best_solution()`, sifted.py:892-931, for a fitness function -/
  search : (List Int → Except Err (Option ℚ)) → Except Err (List Int)

/-- What the stage returns about features; `SiftedOutput`, sifted.py:60-150. -/
structure Out (α : Type) where
  x : List α
  featLabels : List String
  selvars : List Nat
  idx : List Nat
  silhouettes : Option (List ℚ)
  clust : Option (List (List Bool))

/-- `m[:, is]` and `[feat_labels[i] for i in is]`, sifted.py:616, 764, 943. -/
def pick {α : Type} (l : List α) (is : List Nat) : List α := is.filterMap fun i => l[i]?

/-- `_sifted`, sifted.py:527-711.  `rho` are the correlations after `significant`, `dense` says
that the density options are set and dense data is given (546-554, 661): then line 673 slices with
an array as bound, a `TypeError`. -/
def sifted {α : Type} (lib : Lib) (rho : List (List Num)) (thr : Num) (k nalgos : Nat)
    (x : List α) (featLabels : List String) (dense : Bool) : Except Err (Out α) :=
  let n := x.length
  let idx := List.range n
  if n ≤ 1 then .error .notEnoughFeatures
  else if n ≤ 3 then .ok ⟨x, featLabels, List.range n, idx, none, none⟩
  else
    let selvars := selectByPerformance lib.argsort rho thr n nalgos
    let m := selvars.length
    if m ≤ 1 then .error .notEnoughFeatures
    else if m ≤ 3 ∨ m ≤ k then
      .ok ⟨pick x selvars, pick featLabels selvars, selvars, idx, none, none⟩
    else
      match evaluateCluster (lib.silhouette selvars) (lib.evalLabels selvars) m k with
      | .error e => .error e
      | .ok (scores, _) =>
        let labels := lib.kmeans selvars k
        match lib.search (cost lib.err nalgos labels n) with
        | .error e => .error e
        | .ok best =>
          match decode labels k selvars best with
          | .error e => .error e
          | .ok sel =>
            if dense then .error .typeError
            else .ok ⟨pick x sel, pick featLabels sel, sel, idx, some scores, some (clustOf labels k)⟩

end Verif.Sifted
