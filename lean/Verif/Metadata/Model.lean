/-!
# Model of `instancespace/data/metadata.py`

Column names are strings, cells are opaque.  `lower` is Python's `str.lower` and is a parameter.
-/
set_option autoImplicit false

namespace Verif.Metadata

variable {V : Type}

/-- A pandas data frame with string column names, metadata.py:30, 43.  `cols` lists the columns in
order (names may repeat), each with its cells in row order. -/
structure Table (V : Type) where
  nrows : Nat
  cols : List (String × List V)
  deriving DecidableEq, Repr

/-- `.str.startswith(p)`, metadata.py:45-46. -/
def hasPrefix (p s : String) : Bool := p.toList.isPrefixOf s.toList

/-- `var_labels.str.lower() == "instances"`, metadata.py:44. -/
def isName (lower : String → String) (s : String) : Bool := lower s == "instances"
/-- metadata.py:45. -/
def isFeat (lower : String → String) (s : String) : Bool := hasPrefix "feature_" (lower s)
/-- metadata.py:46. -/
def isAlgo (lower : String → String) (s : String) : Bool := hasPrefix "algo_" (lower s)
/-- metadata.py:47. -/
def isSource (lower : String → String) (s : String) : Bool := lower s == "source"

/-- `data.loc[:, mask]`, metadata.py:49, 56, 58, 59. -/
def Table.loc (t : Table V) (mask : String → Bool) : Table V :=
  { t with cols := t.cols.filter fun c => mask c.1 }

/-- What `DataFrame.squeeze()`, metadata.py:49 and 56, may return: a scalar, a Series, or the frame itself. -/
inductive Squeezed (V : Type)
  | scalar (v : V)
  | series (vs : List V)
  | frame (t : Table V)
  deriving DecidableEq, Repr

/-- Row `i` of a table as a list, one cell per column (what `squeeze()`, metadata.py:49, keeps of a
table with one row). -/
def Table.row (t : Table V) (i : Nat) : List V := t.cols.filterMap fun c => c.2[i]?

/-- `DataFrame.squeeze()`, metadata.py:49, 56: every axis of length 1 is dropped. -/
def Table.squeeze (t : Table V) : Squeezed V :=
  match t.cols with
  | [c] =>
    match t.nrows, c.2 with
    | 1, [v] => .scalar v
    | _, vs => .series vs
  | _ => if t.nrows = 1 then .series (t.row 0) else .frame t

/-- `.astype(str)` applied cell by cell, metadata.py:52. -/
def Squeezed.astype (str : V → V) : Squeezed V → Squeezed V
  | .scalar v => .scalar (str v)
  | .series vs => .series (vs.map str)
  | .frame t => .frame { t with cols := t.cols.map fun c => (c.1, c.2.map str) }

/-- `DataFrame.to_numpy()`, metadata.py:67-68: the list of rows. -/
def Table.toNumpy (t : Table V) : List (List V) := (List.range t.nrows).map t.row

/-- The result, metadata.py:22-27. -/
structure Meta (V : Type) where
  featureNames : List String
  algorithmNames : List String
  labels : Squeezed V
  sources : Option (Squeezed V)
  features : List (List V)
  algorithms : List (List V)
  deriving DecidableEq, Repr

/-- `from_data_frame`, metadata.py:30-71.  `numeric` is `pd.api.types.is_numeric_dtype`, `str` the
conversion of one cell to a string.  (Not modelled: a one-row table whose only label spells the
name of a numeric dtype, e.g. `int64`, for which line 52 raises.) -/
def fromDataFrame (lower : String → String) (numeric : Squeezed V → Bool) (str : V → V)
    (t : Table V) : Meta V :=
  let labels := (t.loc (isName lower)).squeeze
  let feats := t.loc (isFeat lower)
  let algos := t.loc (isAlgo lower)
  { featureNames := feats.cols.map Prod.fst
    algorithmNames := algos.cols.map Prod.fst
    labels := if numeric labels then labels.astype str else labels
    sources := if t.cols.any fun c => isSource lower c.1
      then some (t.loc (isSource lower)).squeeze else none
    features := feats.toNumpy
    algorithms := algos.toNumpy }

/-- What `pd.read_csv` may do, metadata.py:109-117: return a table or raise one of the named
exceptions or another one (for example `UnicodeDecodeError`, a `ValueError`). -/
inductive Read (V : Type)
  | table (t : Table V)
  | fileNotFound | osError | parserError | emptyData | unicodeDecode | otherError
  deriving DecidableEq, Repr

/-- The outcome of `from_csv_file`, metadata.py:83-119: a value (possibly `None`) or an escaping exception. -/
inductive Loaded (V : Type)
  | value (m : Option (Meta V))
  | raised
  deriving DecidableEq, Repr

/-- `from_csv_file`, metadata.py:83-119. -/
def fromCsvFile (lower : String → String) (numeric : Squeezed V → Bool) (str : V → V) :
    Read V → Loaded V
  | .table t => .value (some (fromDataFrame lower numeric str t))
  | .fileNotFound => .value none
  | .osError => .value none
  | .parserError => .value none
  | .emptyData => .value none
  | .unicodeDecode => .raised
  | .otherError => .raised

end Verif.Metadata
