import Verif.EndToEnd.SpecTrace
/-!
# Specification of tables whose features are measured from different zero points
-/
set_option autoImplicit false

namespace Verif.EndToEnd

open Verif (Num)
open Verif.Pipeline (Name)
open Verif.Metadata (Table Begins)
open Verif.Preprocessing (Mat)
open Verif.Runner (Dict RunError)

variable {V W : Type}

/-- `t'` is the table `t` with the number `zero name` added to every cell of the feature `name`; all other
columns are the same. -/
structure Rezeroed (lower : String → String) (num : V → Num) (zero : String → ℚ) (t t' : Table V) :
    Prop where
  rows : t'.nrows = t.nrows
  rect : t.Rect
  rect' : t'.Rect
  columns : List.Forall₂ (fun c c' : String × List V => c'.1 = c.1 ∧
    (Begins lower "feature_" c.1 → c'.2.map num = c.2.map fun v => num v + .fin (zero c.1)) ∧
    (¬ Begins lower "feature_" c.1 → c'.2 = c.2)) t.cols t'.cols

/-- A row with the numbers `z` added to its entries. -/
def moveRow (z : List ℚ) (row : List Num) : List Num := List.zipWith (fun v q => v + .fin q) row z

/-- What is recorded of the features as they were given, and of their location: these differ when a zero
point is moved. -/
def aboutLocation : List Name := [.features, .x_raw, .med_val, .hi_bound, .lo_bound, .min_x]

/-- The same exception, or the same output except for what is recorded of the location of the features; the
raw features differ by a constant for each feature. -/
def SameButLocation :
    Except (RunError Name Err) (Dict Name (Val V W)) → Except (RunError Name Err) (Dict Name (Val V W)) → Prop
  | .error e, .error e' => e = e'
  | .ok d, .ok d' => (∀ n, n ∉ aboutLocation → d n = d' n) ∧
      ((d .x_raw = none ∧ d' .x_raw = none) ∨ ∃ m m' z, d .x_raw = some (.table m) ∧ d' .x_raw = some (.table m') ∧
        z.length = m.ncols ∧ m'.ncols = m.ncols ∧ m'.rows = m.rows.map (moveRow z))
  | _, _ => False

end Verif.EndToEnd
