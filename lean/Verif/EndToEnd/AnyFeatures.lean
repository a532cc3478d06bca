import Verif.EndToEnd.Footprints
/-!
# The last stages on features that are missing or infinite

PILOT, CLOISTER and PYTHIA where `Verif.EndToEnd.Late` does not model them.  What PILOT and CLOISTER do with such
features is arbitrary, except that PILOT multiplies the features with its matrix; no model is trained on
coordinates that are not numbers.
-/
set_option autoImplicit false

namespace Verif.EndToEnd

open Verif (Num)
open Verif.Pipeline (Stg Name)
open Verif.Preprocessing (Mat)

variable {V W : Type}

/-- What the libraries make of features that are missing or infinite: an exception, or PILOT's matrix
(pilot.py:264 and 411) with its other results (289-318), and CLOISTER's results (cloister.py:187-199). -/
structure Beyond (V W : Type) where
  pilot : (x y : Mat Num) → Except Err ((Fin 2 → Fin x.ncols → Num) × (Name → Val V W))
  cloister : (x a : Mat Num) → Except Err (Val V W × Val V W)

/-- A row of features times a row of the matrix, with NaN and infinities; pilot.py:265 and 412.  All rows of
an array have the length `n`. -/
def weigh {n : Nat} (r : List Num) (a : Fin n → Num) : Num :=
  if r.length = n then (List.ofFn fun j : Fin n => r.getD j .nan * a j).foldr (· + ·) 0 else .nan

/-- `x @ out_a.T`, pilot.py:265 and 412. -/
def projected (x : Mat Num) (a : Fin 2 → Fin x.ncols → Num) : Mat Num :=
  ⟨2, x.rows.map fun r => [weigh r (a 0), weigh r (a 1)]⟩

/-- `PilotStage._run`, pilot.py:160-165, also on features that are missing or infinite. -/
def fullPilot (le : Late V W) (bl : Beyond V W) (vs : List (Val V W)) : Except Err (List (Name × Val V W)) :=
  match vs with
  | [.table x, .table y, .names _, _] =>
    if isFinite x then runPilot le vs
    else
      match bl.pilot x y with
      | .error e => .error e
      | .ok (a, other) =>
        .ok [(.X0, other .X0), (.alpha, other .alpha), (.eoptim, other .eoptim), (.perf, other .perf),
          (.a, .table ⟨x.ncols, [List.ofFn (a 0), List.ofFn (a 1)]⟩), (.z, .table (projected x a)),
          (.c, other .c), (.b, other .b), (.error, other .error), (.r2, other .r2),
          (.pilot_summary, other .pilot_summary)]
  | _ => .error .unmodelled

/-- `CloisterStage._run`, cloister.py:143-159, also on features that are missing or infinite. -/
def fullCloister (le : Late V W) (bl : Beyond V W) (vs : List (Val V W)) :
    Except Err (List (Name × Val V W)) :=
  match vs with
  | [.table x, .table a, _] =>
    if isFinite x then runCloister le vs
    else
      match bl.cloister x a with
      | .error e => .error e
      | .ok (edge, ecorr) => .ok [(.z_edge, edge), (.z_ecorr, ecorr)]
  | _ => .error .unmodelled

/-- `PythiaStage._run`, pythia.py:272-282: scikit-learn raises a `ValueError` for coordinates that are not
finite (582), and the z-scores (649) of such coordinates are not finite. -/
def fullPythia (le : Late V W) (vs : List (Val V W)) : Except Err (List (Name × Val V W)) :=
  runPythia { le with
    fitted := fun z y yBin i => if isFinite z then le.fitted z y yBin i else .error .valueError } vs

/-- The last four stages, instance_space.py:142-145. -/
def fullLate (le : Late V W) (bl : Beyond V W) : Stg → List (Val V W) → Except Err (List (Name × Val V W))
  | .pilot, vs => fullPilot le bl vs
  | .pythia, vs => fullPythia le vs
  | .cloister, vs => fullCloister le bl vs
  | .trace, vs => le.trace vs
  | _, _ => .error .unmodelled

end Verif.EndToEnd
