import Verif.EndToEnd.SpecTrace
/-!
# Specification of tables whose performances are in another unit or measured from another zero point
-/
set_option autoImplicit false

namespace Verif.EndToEnd

open Verif (Num)
open Verif.Pipeline (Name)
open Verif.Metadata (Table Begins)
open Verif.Preprocessing (Mat)
open Verif.Runner (Dict RunError)

variable {V W G : Type}

/-- `t'` is the table `t` with every performance `v` replaced by `f v`; all other columns are the same. -/
structure Rescaled (lower : String → String) (num : V → Num) (f : Num → Num) (t t' : Table V) : Prop where
  rows : t'.nrows = t.nrows
  columns : List.Forall₂ (fun c c' : String × List V => c'.1 = c.1 ∧
    (Begins lower "algo_" c.1 → c'.2.map num = c.2.map fun v => f (num v)) ∧
    (¬ Begins lower "algo_" c.1 → c'.2 = c.2)) t.cols t'.cols

/-- The performances as they were given, the best of them, the smallest one, and the table of average
performances: these are in the unit of the table. -/
def inTheUnit : List Name := [.algorithms, .y_raw, .y_best, .min_y, .pythia_summary]

/-- The same exception, or the same output except for what is in the unit of the performances; the raw
performances and the best ones differ by `f`. -/
def SameButUnit (f : Num → Num) :
    Except (RunError Name Err) (Dict Name (Val V W)) → Except (RunError Name Err) (Dict Name (Val V W)) → Prop
  | .error e, .error e' => e = e'
  | .ok d, .ok d' => (∀ n, n ∉ inTheUnit → d n = d' n) ∧
      (∃ m : Mat Num, d .y_raw = some (.table m) ∧
        d' .y_raw = some (.table ⟨m.ncols, m.rows.map (·.map f)⟩)) ∧
      ∃ l : List Num, d .y_best = some (.numbers l) ∧ d' .y_best = some (.numbers (l.map f))
  | _, _ => False

/-- The classifiers are trained on the coordinates and the verdicts, and do not get to see the
performances (pythia.py:380-421 without weights). -/
def TrainedOnVerdicts (le : Nat → Late V W) : Prop :=
  ∀ k, (le k).useWeights = false ∧ ∀ z y y' yBin, (le k).fitted z y yBin = (le k).fitted z y' yBin

end Verif.EndToEnd
