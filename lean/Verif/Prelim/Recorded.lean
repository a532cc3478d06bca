import Verif.Prelim.Model
/-!
# What PRELIM records about features and performances, prelim.py:677-734
-/
set_option autoImplicit false

namespace Verif.Prelim

open Verif (Num)

/-- `med_val` and `iq_range` of a column, prelim.py:448-450 and 677-678.  A NaN in the column makes both NaN; a
column with an infinity but no NaN is not modelled, `mid` stands for whatever comes out. -/
def middleOf (mid : Num × Num) (col : List Num) : Num × Num :=
  match finites col with
  | some qs =>
    let s := qs.mergeSort (fun a b => decide (a ≤ b))
    (.fin (median s), .fin (quartile 3 s - quartile 1 s))
  | none => if col.any Num.isNan then (.nan, .nan) else mid

/-- `np.min`, prelim.py:538, 553, 692 and 696; it raises on an empty array (no instances), which does not
occur after preprocessing. -/
def minOf : List Num → Num
  | [] => .nan
  | a :: l => npMin a l

/-- What is recorded about one feature, prelim.py:66-154. -/
structure Scale where
  med : Num
  iqr : Num
  hi : Num
  lo : Num
  min : Num
  lambda : Num
  mu : Num
  sigma : Num
  deriving DecidableEq, Repr

/-- What is recorded about one feature column, prelim.py:538-550 and 677-706.  `fit` gives the exponent found by
`boxcox_fmin` and the mean and standard deviation of the transformed values, from the shifted values that
are not NaN; without normalisation these three are 0 (693-695). -/
def recordX (o : Opts) (junk mid : Num × Num) (fit : List Num → Num × Num × Num) (col : List Num) : Scale :=
  let m := middleOf mid col
  let b := boundsOf junk col
  let c := if o.bound then boundCol junk col else col
  let f := if o.norm then fit ((c.map fun v => v - minOf c + 1).filter fun v => !v.isNan) else (0, 0, 0)
  ⟨m.1, m.2, b.2, b.1, minOf c, f.1, f.2.1, f.2.2⟩

/-- `min_y`, and `lambda_y`, `mu_y`, `sigma_y` of each algorithm, prelim.py:553-567 and 696-713: of the array
passed in with normalisation, otherwise of the local `y`. -/
def recordY (o : Opts) (fit : List Num → Num × Num × Num) (nalgos : Nat) (outs : List Row) :
    Num × List (Num × Num × Num) :=
  let cols := columns nalgos (outs.map fun r => if o.norm then r.yIn else r.y)
  let m := minOf cols.flatten
  (m, cols.map fun c =>
    if o.norm then fit ((c.map fun v => v - m + .fin Num.eps).filter fun v => !v.isNan) else (0, 0, 0))

end Verif.Prelim
