import Verif.EndToEnd.Spec
/-!
# Specification of the way from the raw feature values to the coordinates
-/
set_option autoImplicit false

namespace Verif.EndToEnd

open Verif (Num)
open Verif.Pipeline (Name)
open Verif.Runner (Dict)

variable {V W : Type}

/-- What is needed to process the values of one feature. -/
structure Ruler where
  lo : Num
  hi : Num
  min : Num
  lambda : Num
  mu : Num
  sigma : Num

/-- Outliers are moved to the nearest bound if `bound` is set.  If `norm` is set, the result is measured from
the smallest value, which becomes 1, raised to the power `lambda` in the sense of Box and Cox, and standardised. -/
def Ruler.place (bound norm : Bool) (power : Num → Num → Num) (r : Ruler) (v : Num) : Num :=
  let w := if bound then (if v.lt r.lo then r.lo else if r.hi.lt v then r.hi else v) else v
  if norm then (power r.lambda (w - r.min + 1) - r.mu) / r.sigma else w

/-- Entry `i` of the array `n` of the output is `v`. -/
def Noted (d : Dict Name (Val V W)) (n : Name) (i : Nat) (v : Num) : Prop :=
  ∃ l, d n = some (.numbers l) ∧ l[i]? = some v

/-- The output has these quantities for feature `i`. -/
structure Ruled (d : Dict Name (Val V W)) (i : Nat) (r : Ruler) : Prop where
  lo : Noted d .lo_bound i r.lo
  hi : Noted d .hi_bound i r.hi
  min : Noted d .min_x i r.min
  lambda : Noted d .lambda_x i r.lambda
  mu : Noted d .mu_x i r.mu
  sigma : Noted d .sigma_x i r.sigma

/-- The transformation of a column without missing values is the Box-Cox transformation with the exponent that
`fit` finds, standardised with the mean and the standard deviation that `fit` finds. -/
def FitsBy (tr : List Num → List Num) (fit : List Num → Num × Num × Num) (power : Num → Num → Num) : Prop :=
  ∀ l : List Num, (∀ v ∈ l, v.isNan = false) →
    tr l = l.map fun v => (power (fit l).1 v - (fit l).2.1) / (fit l).2.2

/-- Coordinate `r` of instance `k` in `z` is the sum of the instance's processed values, weighted with row `r` of
`a`; the processed values are those of the features `sel`, obtained from the raw values with what is recorded
about the features. -/
def Recomputed (bound norm : Bool) (power : Num → Num → Num) (d : Dict Name (Val V W))
    (raw z a : List (List Num)) (sel : List Nat) (k r : Nat) : Prop :=
  ∃ xs ws : List ℚ, xs.length = sel.length ∧ ws.length = sel.length ∧
    (∀ j i : Nat, sel[j]? = some i → ∃ ruler v q, Ruled d i ruler ∧ At raw k i v ∧ xs[j]? = some q ∧
      ruler.place bound norm power v = .fin q) ∧
    (∀ (j : Nat) q, ws[j]? = some q → At a r j (.fin q)) ∧
    At z k r (.fin (List.zipWith (· * ·) xs ws).sum)

/-- `col` are the cells of the column called `name`, in the rows `rows`. -/
def Cells (num : V → Num) (t : Metadata.Table V) (rows : List Nat) (name : String) (col : List Num) : Prop :=
  col.length = rows.length ∧
    ∀ (k i : Nat) (v : V), rows[k]? = some i → Cell t name i v → col[k]? = some (num v)

/-- The arrays in which PRELIM records one number for each feature. -/
def scales : List Name :=
  [.med_val, .iq_range, .hi_bound, .lo_bound, .min_x, .lambda_x, .mu_x, .sigma_x]

/-- Entry `j` of `min_x` belongs to feature label `j`: if the features are not bounded, it is the smallest value
of that feature among the instances that are kept. -/
def MinimaLinedUp (lower : String → String) (num : V → Num) (env : Env V W) (t : Metadata.Table V)
    (d : Dict Name (Val V W)) : Prop :=
  env.prelim.bound = false → ∀ rows feats, KeptRows lower num env t rows →
    d .feat_labels = some (.names feats) → ∀ (j : Nat) name (qs : List ℚ) (a : ℚ), feats[j]? = some name →
      Cells num t rows name (qs.map .fin) → Noted d .min_x j (.fin a) → a ∈ qs ∧ ∀ q ∈ qs, a ≤ q

end Verif.EndToEnd
