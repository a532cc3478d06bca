import Verif.Pipeline.Model
import Verif.Metadata.Model
import Verif.Options.Tables
/-!
# From the metadata and the options to the Model

The inputs `InstanceSpace` gives to its runner, and the parts of the `Model` it makes from the output.
-/
set_option autoImplicit false

namespace Verif.Pipeline

open Verif.Runner (collect)
open Verif.Metadata (Meta Squeezed)

/-! ### The inputs -/

/-- Values of the initial inputs, instance_space.py:54-73: lists of names, columns, missing or present
sources, tables and option groups. -/
inductive Given (V W : Type)
  | names (l : List String)
  | column (c : Squeezed V)
  | sources (c : Option (Squeezed V))
  | table (rows : List (List V))
  | options (fields : Options.Dict W)

/-- An attribute of `InstanceSpaceOptions`, e.g. `options.perf`, options.py:373-384. -/
def group {W : Type} (o : List (String × Options.Dict W)) (name : String) : Options.Dict W :=
  ((o.find? fun p => p.1 == name).map Prod.snd).getD []

/-- `PrelimOptions.from_options`, options.py:730-741. -/
def prelimOptions {W : Type} (o : List (String × Options.Dict W)) : Options.Dict W :=
  [("max_perf", "perf", "max_perf"), ("abs_perf", "perf", "abs_perf"), ("epsilon", "perf", "epsilon"),
    ("beta_threshold", "perf", "beta_threshold"), ("bound", "bound", "flag"),
    ("norm", "norm", "flag")].filterMap fun r =>
      (Options.get (group o r.2.1) r.2.2).map fun v => (r.1, v)

/-- `_InstanceSpaceInputs.from_metadata_and_options`, instance_space.py:75-101. -/
def spaceInputs {V W : Type} (m : Meta V) (o : List (String × Options.Dict W)) :
    Runner.Dict Name (Given V W)
  | .feature_names => some (.names m.featureNames)
  | .algorithm_names => some (.names m.algorithmNames)
  | .instance_labels => some (.column m.labels)
  | .instance_sources => some (.sources m.sources)
  | .features => some (.table m.features)
  | .algorithms => some (.table m.algorithms)
  | .parallel_options => some (.options (group o "parallel"))
  | .perf_options => some (.options (group o "perf"))
  | .auto_options => some (.options (group o "auto"))
  | .bound_options => some (.options (group o "bound"))
  | .norm_options => some (.options (group o "norm"))
  | .selvars_options => some (.options (group o "selvars"))
  | .sifted_options => some (.options (group o "sifted"))
  | .pilot_options => some (.options (group o "pilot"))
  | .cloister_options => some (.options (group o "cloister"))
  | .pythia_options => some (.options (group o "pythia"))
  | .trace_options => some (.options (group o "trace"))
  | .outputs_options => some (.options (group o "outputs"))
  | .prelim_options => some (.options (prelimOptions o))
  | _ => none

/-! ### The Model -/

/-- The fields of the parts of a `Model` that are read from the output, and the keys they are read
from: `Data`, data/model.py:56-70. -/
def dataFields : List (String × Name) :=
  [("inst_labels", .inst_labels), ("feat_labels", .feat_labels), ("algo_labels", .algo_labels),
    ("x", .x), ("y", .y), ("x_raw", .x_raw), ("y_raw", .y_raw), ("y_bin", .y_bin),
    ("y_best", .y_best), ("p", .p), ("num_good_algos", .num_good_algos), ("beta", .beta), ("s", .s)]

/-- `PrelimOut`, data/model.py:146-159. -/
def prelimFields : List (String × Name) :=
  [("med_val", .med_val), ("iq_range", .iq_range), ("hi_bound", .hi_bound), ("lo_bound", .lo_bound),
    ("min_x", .min_x), ("lambda_x", .lambda_x), ("mu_x", .mu_x), ("sigma_x", .sigma_x),
    ("min_y", .min_y), ("lambda_y", .lambda_y), ("sigma_y", .sigma_y), ("mu_y", .mu_y)]

/-- `SiftedOut`, data/model.py:192-199. -/
def siftedFields : List (String × Name) :=
  [("selvars", .selvars), ("idx", .idx), ("rho", .rho), ("pval", .pval),
    ("silhouette_scores", .silhouette_scores), ("clust", .clust)]

/-- `PilotOut`, data/model.py:237-249. -/
def pilotFields : List (String × Name) :=
  [("X0", .X0), ("alpha", .alpha), ("eoptim", .eoptim), ("perf", .perf), ("a", .a), ("z", .z),
    ("c", .c), ("b", .b), ("error", .error), ("r2", .r2), ("summary", .pilot_summary)]

/-- `CloisterOut`, data/model.py:282-285. -/
def cloisterFields : List (String × Name) := [("z_edge", .z_edge), ("z_ecorr", .z_ecorr)]

/-- `PythiaOut`, data/model.py:329-347. -/
def pythiaFields : List (String × Name) :=
  [("mu", .mu), ("sigma", .sigma), ("cp", .cp), ("svm", .svm), ("cvcmat", .cvcmat),
    ("y_sub", .y_sub), ("y_hat", .y_hat), ("pr0_sub", .pr0_sub), ("pr0_hat", .pr0_hat),
    ("box_consnt", .box_consnt), ("k_scale", .k_scale), ("precision", .precision),
    ("recall", .recall), ("accuracy", .accuracy), ("selection0", .selection0),
    ("selection1", .selection1), ("summary", .pythia_summary)]

/-- `TraceOut`, data/model.py:457-463. -/
def traceFields : List (String × Name) :=
  [("space", .space), ("good", .good), ("best", .best), ("hard", .hard), ("summary", .trace_summary)]

/-- `FeatSel`, data/model.py:491-493. -/
def featSelFields : List (String × Name) := [("idx", .idx)]

/-- A `Model`, model.py:33-43; each part is the list of its fields. -/
structure ModelObj (V O : Type) where
  data : List (String × V)
  dataDense : List (String × V)
  featSel : List (String × V)
  prelim : List (String × V)
  sifted : List (String × V)
  pilot : List (String × V)
  cloister : List (String × V)
  pythia : List (String × V)
  trace : List (String × V)
  opts : O

/-- One `from_stage_runner_output`, e.g. data/model.py:56-70: read the keys in order, a missing one is a
`KeyError`. -/
def readPart {V : Type} (d : Runner.Dict Name V) (fields : List (String × Name)) :
    Except Name (List (String × V)) :=
  match collect d (fields.map Prod.snd) with
  | .error n => .error n
  | .ok vs => .ok ((fields.map Prod.fst).zip vs)

/-- `Model.from_stage_runner_output`, model.py:48-78. -/
def modelOf {V O : Type} (d : Runner.Dict Name V) (opts : O) : Except Name (ModelObj V O) := do
  let data ← readPart d dataFields
  let featSel ← readPart d featSelFields
  let prelim ← readPart d prelimFields
  let sifted ← readPart d siftedFields
  let pilot ← readPart d pilotFields
  let cloister ← readPart d cloisterFields
  let pythia ← readPart d pythiaFields
  let trace ← readPart d traceFields
  return { data, dataDense := data, featSel, prelim, sifted, pilot, cloister, pythia, trace, opts }

end Verif.Pipeline
