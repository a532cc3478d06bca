import Verif.Pipeline.Model
/-!
# Which instances the rows of a value belong to

Every stage is reduced to what it does to the rows of the per-instance values; the numbers
themselves are forgotten.
-/
set_option autoImplicit false

namespace Verif.Pipeline

open Verif.Builder Verif.Runner

/-- A value: per-instance data, given by the identities of the instances of its rows in order,
or anything else.  Values as in stages/prelim.py:28-62 etc. -/
inductive Val
  | inst (rows : List Nat)
  | other
  deriving DecidableEq, Repr

/-- Boolean mask indexing of the rows, e.g. prelim.py:847-857, preprocessing.py:333-341. -/
def select : List Bool → List Nat → List Nat
  | b :: bs, r :: rs => if b then r :: select bs rs else select bs rs
  | _, _ => []

/-- The mask applied to a value; `s` may be `None`, which is not modelled (preprocessing.py:340,
prelim.py:859-860). -/
def Val.select (mask : List Bool) : Val → Val
  | .inst rows => .inst (Pipeline.select mask rows)
  | .other => .other

/-- What the data and the options decide: the rows Preprocessing keeps (`~idx`,
preprocessing.py:328-341), the subset Prelim takes (`subset_index`, prelim.py:798-838; `none`
when there is no subsetting) and whether Sifted raises (sifted.py:556-565 or the slice of
670-671). -/
structure RowEnv where
  keep : List Bool
  subset : Option (List Bool)
  siftedRaises : Bool

/-- `inputs.name` of a stage, the tuple made at stage_runner.py:143-153: the value passed for the field of
that name. -/
def arg (s : Stg) (vs : List Val) (n : Name) : Val :=
  match ((inputs s).map Prod.fst).zip vs |>.find? (fun p => p.1 = n) with
  | some p => p.2
  | none => .other

/-- An output tuple, returned at stage_runner.py:155: the given fields, `other` for all other declared
ones. -/
def output (s : Stg) (per : List (Name × Val)) : List (Name × Val) :=
  (outputs s).map fun a =>
    (a.1, match per.find? (fun p => p.1 = a.1) with | some p => p.2 | none => .other)

/-- The seven stages on rows.
Preprocessing: preprocessing.py:139-188, 325-341 (`x_raw` and `y_raw` are `x` and `y`).
Prelim: prelim.py:216-314, 827-876; `y_bin`, `y_best`, `p`, `num_good_algos` and `beta` have the
rows of `y` (584-734); the selected labels are returned under the name `instlabels` (152, 311).
Sifted: sifted.py:550-711, every return statement that does not raise passes the per-instance
inputs on, with columns of `x` selected.
Pilot: pilot.py:175-330, `z` has the rows of `x`.  Pythia: pythia.py:284-511, predictions have
the rows of `z`.  Cloister and Trace return nothing per instance. -/
def rowRun (env : RowEnv) : Nat → Stg → List Val → Except Unit (List (Name × Val)) :=
  fun _ s vs => match s with
    | .preprocessing =>
      let x := (arg s vs .features).select env.keep
      let y := (arg s vs .algorithms).select env.keep
      .ok (output s [(.x, x), (.y, y), (.x_raw, x), (.y_raw, y),
        (.inst_labels, (arg s vs .instance_labels).select env.keep),
        (.s, (arg s vs .instance_sources).select env.keep)])
    | .prelim =>
      let sub : Val → Val := fun v => match env.subset with | none => v | some m => v.select m
      let y := sub (arg s vs .y)
      .ok (output s [(.x, sub (arg s vs .x)), (.y, y), (.x_raw, sub (arg s vs .x_raw)),
        (.y_raw, sub (arg s vs .y_raw)), (.y_bin, y), (.y_best, y), (.p, y), (.num_good_algos, y),
        (.beta, y), (.instlabels, sub (arg s vs .inst_labels)), (.s, sub (arg s vs .s))])
    | .sifted =>
      if env.siftedRaises then .error () else
      .ok (output s ([.x, .y, .y_bin, .x_raw, .y_raw, .beta, .num_good_algos, .y_best, .p,
        .inst_labels, .s].map fun n => (n, arg s vs n)))
    | .pilot => .ok (output s [(.z, arg s vs .x)])
    | .pythia =>
      let z := arg s vs .z
      .ok (output s ([.y_sub, .y_hat, .pr0_sub, .pr0_hat, .selection0, .selection1].map
        fun n => (n, z)))
    | .cloister => .ok (output s [])
    | .trace => .ok (output s [])

/-- The initial inputs: four values have the rows of the metadata, metadata.py:29-71 and
instance_space.py:81-101. -/
def rowArgs (ids : List Nat) : Dict Name Val := fun n =>
  if n ∈ [Name.instance_labels, .features, .algorithms, .instance_sources] then some (.inst ids)
  else if n ∈ initial.map Prod.fst then some .other else none

end Verif.Pipeline
