/-!
# Model of `instancespace/stages/preprocessing.py`

Numbers are opaque; only `np.isnan` is used on them and it is a parameter.  A matrix is a list
of rows with its number of columns.  Printed messages are not modelled.
-/
set_option autoImplicit false

namespace Verif.Preprocessing

variable {V L I S : Type}

/-- A two-dimensional array: number of columns and rows.  preprocessing.py:57-58. -/
structure Mat (V : Type) where
  ncols : Nat
  rows : List (List V)
  deriving DecidableEq, Repr

/-- Exceptions: a column index out of range (preprocessing.py:246, 269) and the division by the
number of instances (360). -/
inductive Err
  | indexError
  | zeroDivision
  deriving DecidableEq, Repr

/-- One half of `select_features_and_algorithms`: preprocessing.py:231-252 for features and
255-275 for algorithms.  `x[:, idx]` raises when an index is out of range. -/
def select [DecidableEq L] (x : Mat V) (labels : List L) (wanted : Option (List L)) :
    Except Err (Mat V × List L) :=
  match wanted with
  | none => .ok (x, labels)
  | some w =>
    let selected := labels.filter fun l => l ∈ w
    if selected.isEmpty then .ok (x, labels)
    else
      let idx := selected.map fun l => labels.idxOf l
      if idx.all fun i => i < x.ncols then
        .ok (⟨idx.length, x.rows.map fun row => idx.filterMap fun i => row[i]?⟩, selected)
      else .error .indexError

/-- `a[~idx]`, preprocessing.py:336-342 and 353-354 (which zips labels with the mask). -/
def mask {α : Type} (l : List α) (idx : List Bool) : List α :=
  ((l.zip idx).filter fun p => !p.2).map Prod.fst

/-- The arrays that go through `remove_instances_with_many_missing_values`,
preprocessing.py:279-285. -/
structure Data (V L I S : Type) where
  x : Mat V
  y : Mat V
  s : Option (List S)
  feat : List L
  inst : List I

/-- preprocessing.py:329: for each instance, are all features or all performances
missing?  (`np.all` of an empty row is true.) -/
def emptyRows (nan : V → Bool) (x y : Mat V) : List Bool :=
  List.zipWith (fun a b => a.all nan || b.all nan) x.rows y.rows

/-- preprocessing.py:329-342. -/
def removeRows (nan : V → Bool) (d : Data V L I S) : Data V L I S :=
  let idx := emptyRows nan d.x d.y
  if idx.any id then
    { d with
      x := { d.x with rows := mask d.x.rows idx }
      y := { d.y with rows := mask d.y.rows idx }
      inst := mask d.inst idx
      s := d.s.map fun s => mask s idx }
  else d

/-- Number of missing values in column `j`, preprocessing.py:346. -/
def missing (nan : V → Bool) (x : Mat V) (j : Nat) : Nat :=
  (x.rows.filterMap fun row => row[j]?).countP nan

/-- `np.mean(np.isnan(new_x), axis=0) >= 0.20`, preprocessing.py:345-346, in exact arithmetic.
The mean of no instances is NaN and the comparison is then false. -/
def sparseCols (nan : V → Bool) (x : Mat V) : List Bool :=
  (List.range x.ncols).map fun j =>
    !x.rows.isEmpty && decide (x.rows.length ≤ 5 * missing nan x j)

/-- preprocessing.py:345-354. -/
def removeCols (nan : V → Bool) (d : Data V L I S) : Data V L I S :=
  let idx := sparseCols nan d.x
  if idx.any id then
    { d with
      x := ⟨(mask (List.range d.x.ncols) idx).length, d.x.rows.map fun row => mask row idx⟩
      feat := mask d.feat idx }
  else d

/-- `remove_instances_with_many_missing_values`, preprocessing.py:279-365.  The duplicate ratio
is only printed, but computing it divides by the number of instances. -/
def removeMissing (nan : V → Bool) (d : Data V L I S) : Except Err (Data V L I S) :=
  let d := removeCols nan (removeRows nan d)
  if d.x.rows.length = 0 then .error .zeroDivision else .ok d

/-- The output of the stage, preprocessing.py:63-94; `x_raw` and `y_raw` are `x` and `y`. -/
structure Output (V L I S : Type) where
  data : Data V L I S
  algo : List L

/-- `_run`, preprocessing.py:139-188. -/
def run [DecidableEq L] (nan : V → Bool) (d : Data V L I S) (algo : List L)
    (feats algos : Option (List L)) : Except Err (Output V L I S) :=
  match select d.x d.feat feats with
  | .error e => .error e
  | .ok (x, feat) =>
    match select d.y algo algos with
    | .error e => .error e
    | .ok (y, algo) =>
      match removeMissing nan { d with x := x, y := y, feat := feat } with
      | .error e => .error e
      | .ok d => .ok ⟨d, algo⟩

end Verif.Preprocessing
