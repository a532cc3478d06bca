import Verif.EndToEnd.Late
import Verif.EndToEnd.Files
import Verif.Trace.Summary
/-!
# TRACE as a stage of the pipeline, and what is exported of it

The model of TRACE on the typed values of the pipeline, on finite coordinates.
-/
set_option autoImplicit false

namespace Verif.EndToEnd

open Verif (Num)
open Verif.Pipeline (Name ModelObj)
open Verif.Export (Export)

variable {V α O G : Type}

/-- The results of TRACE that are not tables (trace.py:103-126), and a place for other values that are not
tracked. -/
inductive Kept (G : Type)
  | footprint (f : Trace.Footprint G ℚ)
  | footprints (l : List (Trace.Footprint G ℚ))
  | nothing

/-- What the options and the libraries decide in TRACE: the geometry of shapely and alphashape
(trace.py:520-754), `purity` and `use_sim` of the options, and the order in which the algorithms are
finished (trace.py:1012). -/
structure TraceEnv (G : Type) where
  geo : Trace.Geo G (Fin 2 → ℚ) ℚ
  purity : ℚ
  useSim : Bool
  order : Nat → List Nat

/-- A row of `self.z` as a point, trace.py:601. -/
def place (r : List Num) : Fin 2 → ℚ := fun k => value (r.getD k .nan)

/-- The data frame of TRACE's summary, trace.py:471-505. -/
def traceFrame (t : List (String × List Num)) : List (String × List Entry) :=
  ("Algorithm", t.map fun r => .word r.1) ::
    Trace.dataLabels.zipIdx.map fun c => (c.1, t.map fun r => .num (r.2.getD c.2 .nan))

/-- `_trace`, trace.py:352-518, with the verdicts `y` and the best algorithms `best` of `_run`, on `n`
algorithms. -/
def footprints (te : TraceEnv G) (z : List (Fin 2 → ℚ)) (y : List (List Bool)) (best : List Nat)
    (beta : List Bool) (algo : List String) :
    Except Trace.Err (Trace.Out G ℚ × List (String × List Num)) :=
  match Trace.computeQualities (E := Trace.Err) Trace.missing Trace.missing
      (fun i => .ok (Trace.processAlgorithm te.geo te.purity z y best i)) algo.length
      (te.order algo.length) with
  | .error e => .error e
  | .ok quals =>
    match Trace.trace te.geo te.purity z best beta algo.length quals with
    | .error e => .error e
    | .ok out =>
      match Trace.summaryTable algo out with
      | .error e => .error e
      | .ok t => .ok (out, t)

/-- `TraceStage._run`, trace.py:270-310, on finite coordinates and with one verdict and one label for each
algorithm (`n_algos`, trace.py:399, is the length of `algo`). -/
def runTrace (te : TraceEnv G) (vs : List (Val V (Kept G))) :
    Except Err (List (Name × Val V (Kept G))) :=
  match vs with
  | [.table z, .counts sel, .counts p, .flags beta, .names algo, .verdicts yHat, .verdicts yBin, _, _] =>
    let y := if te.useSim then yHat else yBin
    let best := if te.useSim then sel else p
    if isFinite z && z.ncols == 2 && y.all (fun r => r.length == algo.length) then
      match footprints te (z.rows.map place) y best beta algo with
      | .error e => .error (.trace e)
      | .ok (out, t) => .ok [(.space, .other (.footprint out.space)),
          (.good, .other (.footprints out.good)), (.best, .other (.footprints out.best)),
          (.hard, .other (.footprint out.hard)), (.trace_summary, .frame (traceFrame t))]
    else .error .unmodelled
  | _ => .error .unmodelled

/-- What the serialiser reads of the results of TRACE, _serialisers.py:41-95 and 179-184: the polygons, of
which it reads what `outline` says, and the summary; the rest stays that of `rest`.  `none`: a value of
another type. -/
def traceOf (tx : Text V α) (outline : G → Export.Geometry α) (rest : Export α)
    (m : ModelObj (Val V (Kept G)) O) : Option (Export α) :=
  match attr m.trace "good", attr m.trace "best", attr m.trace "summary" with
  | some (.other (.footprints good)), some (.other (.footprints best)), some (.frame f) =>
    some { rest with
      good := good.map fun f => f.polygon.map outline
      best := best.map fun f => f.polygon.map outline
      traceSummary := f.map fun c => (c.1, c.2.map tx.entry) }
  | _, _, _ => none

end Verif.EndToEnd
