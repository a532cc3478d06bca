/-!
# Model of `instancespace/utils/filter.py`

A row holds everything known about an instance: its features, performances and goodness.  The
tests on pairs of rows are parameters, so the distance function, the threshold and rounding are
arbitrary; `Verif.Filter.Props` instantiates them with Euclidean distances.
-/
set_option autoImplicit false

namespace Verif.Filter

variable {R : Type}

/-- `_FilterType`, filter.py:19-27. -/
inductive FilterType
  | ftr | ftrAP | ftrGood | ftrAPGood
  deriving DecidableEq, Repr

/-- `_FilterType(selvars_type)`, filter.py:62; `none` is the `ValueError`. -/
def FilterType.ofString (s : String) : Option FilterType :=
  if s = "Ftr" then some .ftr
  else if s = "Ftr&AP" then some .ftrAP
  else if s = "Ftr&Good" then some .ftrGood
  else if s = "Ftr&AP&Good" then some .ftrAPGood
  else none

/-- The tests on two rows: `dx <= min_distance`, `dy <= gamma` and `db`, filter.py:72-76, 82. -/
structure Tests (R : Type) where
  near : R → R → Bool
  close : R → R → Bool
  bothGood : R → R → Bool

/-- One entry of `subset_index`, `is_dissimilar`, `is_visa`, filter.py:57-59. -/
structure Flags where
  excluded : Bool
  dissimilar : Bool
  visa : Bool
  deriving DecidableEq, Repr

/-- The initial entries, filter.py:57-59. -/
def Flags.init : Flags := ⟨false, true, false⟩

/-- The body of the inner loop for the later row `b`, filter.py:76-94. -/
def touch (T : Tests R) (ty : FilterType) (a b : R) (f : Flags) : Flags :=
  if T.near a b then
    let f := { f with dissimilar := false }
    match ty with
    | .ftr => { f with excluded := true }
    | .ftrAP =>
      if T.close a b then { f with excluded := true, visa := false }
      else { f with excluded := false, visa := true }
    | .ftrGood =>
      if T.bothGood a b then { f with excluded := true, visa := false }
      else { f with excluded := false, visa := true }
    | .ftrAPGood =>
      if T.bothGood a b then
        if T.close a b then { f with excluded := true, visa := false }
        else { f with excluded := false, visa := true }
      else { f with visa := true }
  else f

/-- One iteration of the inner loop, filter.py:68-94. -/
def innerStep (T : Tests R) (ty : FilterType) (rows : List R) (i : Nat) (s : Nat → Flags) (j : Nat) :
    Nat → Flags :=
  if (s j).excluded then s
  else
    match rows[i]?, rows[j]? with
    | some a, some b => fun m => if m = j then touch T ty a b (s j) else s m
    | _, _ => s

/-- One iteration of the outer loop, filter.py:64-94. -/
def outerStep (T : Tests R) (ty : FilterType) (rows : List R) (s : Nat → Flags) (i : Nat) :
    Nat → Flags :=
  if (s i).excluded then s
  else (List.range' (i + 1) (rows.length - (i + 1))).foldl (innerStep T ty rows i) s

/-- `filter_instance`, filter.py:30-96, after the checks: one entry per instance. -/
def filterInstance (T : Tests R) (ty : FilterType) (rows : List R) : List Flags :=
  (List.range rows.length).map
    ((List.range rows.length).foldl (outerStep T ty rows) (fun _ => Flags.init))

/-- Exceptions of `filter_instance`: `n_algos / n_feats` with no features (filter.py:61) and an
unknown type (62). -/
inductive FilterError
  | zeroDivision
  | valueError
  deriving DecidableEq, Repr

/-- `filter_instance` with its checks, filter.py:54-62. -/
def filterCall (T : Tests R) (nfeats : Nat) (ty : String) (rows : List R) :
    Except FilterError (List Flags) :=
  if nfeats = 0 then .error .zeroDivision
  else
    match FilterType.ofString ty with
    | none => .error .valueError
    | some ty => .ok (filterInstance T ty rows)

/-- `x[~subset_index]`: the rows that are not excluded, filter.py:116, prelim.py:834-847. -/
def keptRows (rows : List R) (flags : List Flags) : List R :=
  ((rows.zip flags).filter fun p => !p.2.excluded).map Prod.fst

end Verif.Filter
