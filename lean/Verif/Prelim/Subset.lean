import Verif.Filter.Model
/-!
# Model of the subsetting in `instancespace/stages/prelim.py`, `_filter` (736-876)
-/
set_option autoImplicit false

namespace Verif.Prelim

/-- What `_filter` looks at in `SelvarsOptions`, data/options.py:170-181: flags, whether the
values have the expected Python types, and whether the index file exists. -/
structure SubsetOpts where
  smallScaleFlag : Bool
  smallScaleIsFloat : Bool
  fileIdxFlag : Bool
  fileExists : Bool
  densityFlag : Bool
  minDistanceIsFloat : Bool
  typeIsStr : Bool
  selvarsType : String

/-- Exceptions of `_filter`: an index out of range (prelim.py:810), those of `filter_instance`,
and those of scikit-learn and `np.genfromtxt`. -/
inductive SubsetErr
  | indexError
  | filter (e : Filter.FilterError)
  | external
  deriving DecidableEq, Repr

/-- `subset_index[aux] = True` on a fresh array of `n` zeros, with numpy's negative indices;
`none` is the `IndexError`.  prelim.py:798-799, 803, 810. -/
def setTrue (n : Nat) (idx : List Int) : Option (List Bool) :=
  if idx.all fun i => decide (-(n : Int) ≤ i) && decide (i < n) then
    some ((List.range n).map fun (k : Nat) => idx.any fun i => decide (i = k) || decide (i + n = k))
  else none

/-- The index file, prelim.py:803-810. -/
def fromFile (n : Nat) (nums : List Int) : Option (List Bool) :=
  setTrue n ((nums.filter fun a => decide (a < (n : Int))).map fun a => a - 1)

/-- The per-instance arrays of `_filter`, prelim.py:737-748, as one record per instance except for
`s`, which may be `None`. -/
structure Arrays (X Y B N T P L S : Type) where
  x : List X
  y : List Y
  xRaw : List X
  yRaw : List Y
  yBin : List B
  beta : List Bool
  numGood : List N
  yBest : List T
  p : List P
  inst : List L
  s : Option (List S)
  deriving Repr

/-- `a[subset_index]`, prelim.py:848-860. -/
def mask {α : Type} (l : List α) (idx : List Bool) : List α :=
  ((l.zip idx).filter fun p => p.2).map Prod.fst

variable {X Y B N T P L S : Type}

/-- prelim.py:769-772. -/
def SubsetOpts.fractional (o : SubsetOpts) : Bool := o.smallScaleFlag && o.smallScaleIsFloat
/-- prelim.py:777-779. -/
def SubsetOpts.fileIndexed (o : SubsetOpts) : Bool := o.fileIdxFlag && o.fileExists
/-- prelim.py:781-785. -/
def SubsetOpts.byDensity (o : SubsetOpts) : Bool :=
  o.densityFlag && (o.minDistanceIsFloat && o.typeIsStr)

/-- The choice of the mask, prelim.py:787-830.  `split` is the index set returned by
`train_test_split`, `file` the numbers in the index file (`none`: they raise). -/
def subsetIndex (o : SubsetOpts) (tests : Filter.Tests (X × Y × B)) (nfeats : Nat)
    (split : Option (List Nat)) (file : Option (List Int)) (a : Arrays X Y B N T P L S) :
    Except SubsetErr (List Bool) :=
  if o.fractional then
    match split with
    | none => .error .external
    | some is =>
      match setTrue a.x.length (is.map Int.ofNat) with
      | none => .error .indexError
      | some m => .ok m
  else if o.fileIndexed then
    match file with
    | none => .error .external
    | some nums =>
      match fromFile a.x.length nums with
      | none => .error .indexError
      | some m => .ok m
  else if o.byDensity then
    match Filter.filterCall tests nfeats o.selvarsType (a.x.zip (a.y.zip a.yBin)) with
    | .error e => .error (.filter e)
    | .ok flags => .ok (flags.map fun f => !f.excluded)
  else .ok (a.x.map fun _ => true)

/-- `_filter`, prelim.py:736-876: the new arrays and `data_dense`. -/
def filter (o : SubsetOpts) (tests : Filter.Tests (X × Y × B)) (nfeats : Nat)
    (split : Option (List Nat)) (file : Option (List Int)) (a : Arrays X Y B N T P L S) :
    Except SubsetErr (Arrays X Y B N T P L S × Option (Arrays X Y B N T P L S)) :=
  match subsetIndex o tests nfeats split file a with
  | .error e => .error e
  | .ok m =>
    if o.fileIndexed || o.fractional || o.byDensity then
      .ok ({ x := mask a.x m, y := mask a.y m, xRaw := mask a.xRaw m, yRaw := mask a.yRaw m
             yBin := mask a.yBin m, beta := mask a.beta m, numGood := mask a.numGood m
             yBest := mask a.yBest m, p := mask a.p m, inst := mask a.inst m
             s := a.s.map fun s => mask s m },
           if o.byDensity then some a else none)
    else .ok (a, none)

end Verif.Prelim
