import Verif.Pipeline.Model
import Verif.Metadata.Model
import Verif.Preprocessing.Model
import Verif.Prelim.Model
import Verif.Prelim.Subset
import Verif.Prelim.Recorded
import Verif.Sifted.Model
import Verif.Pilot.Model
import Verif.Pythia.Model
import Verif.Trace.Model
/-!
# The pipeline with its data stages

The runner of the default pipeline with the models of Preprocessing, PRELIM and SIFTED plugged in as the
stages they are, on typed values.  The four stages after them (PILOT, PYTHIA, CLOISTER, TRACE) are
arbitrary here; the first three are put in in `Late.lean`, TRACE in `Footprints.lean`.  Values that are not
tracked (options) are opaque.
-/
set_option autoImplicit false

namespace Verif.EndToEnd

open Verif (Num)
open Verif.Pipeline (Stg Name inputs outputs)
open Verif.Preprocessing (Mat)
open Verif.Metadata (Meta Squeezed)

/-- An entry of a `pd.DataFrame`: text or a number; pilot.py:273-287, pythia.py:837-881. -/
inductive Entry
  | word (s : String)
  | num (x : Num)
  deriving DecidableEq

/-- The values of fields, by the annotations of stages/preprocessing.py:33-94, stages/prelim.py:28-154 and
stages/sifted.py:80-199; `dense` only tells whether the dense data is there, since SIFTED fails when it
reads it; `frame` is a table with headings, by columns (pilot.py:85, pythia.py:171). -/
inductive Val (V W : Type)
  | names (l : List String)
  | labels (l : List V)
  | sources (s : Option (List V))
  | table (m : Mat Num)
  | verdicts (l : List (List Bool))
  | numbers (l : List Num)
  | counts (l : List Nat)
  | flags (l : List Bool)
  | dense (present : Bool)
  | frame (f : List (String × List Entry))
  | other (w : W)

/-- Exceptions, by the stage that raises them (stage_runner.py:143-155); `unmodelled` is for values the
stage is not modelled on, e.g. a single label that is not a Series (metadata.py:49). -/
inductive Err
  | preprocessing (e : Preprocessing.Err)
  | prelim
  | subset (e : Prelim.SubsetErr)
  | sifted (e : Sifted.Err)
  | pilot (e : Pilot.Err)
  | cloister
  | pythia (e : Pythia.Err)
  | trace (e : Trace.Err)
  | unmodelled
  | other

/-- What the options and the libraries decide: the options read at preprocessing.py:231-275,
prelim.py:610-708 and 769-785, sifted.py:543-711, the transformation of prelim.py:544-568 (`tr`) with what is
recorded about it (`fit`), the test of
filter.py:75-107, the split and the index file of prelim.py:790-810, `pearsonr` (sifted.py:1050) and the
searches of SIFTED, given the features, the performances and the verdicts (sifted.py:834-856, 922-924), the
values that are not tracked, and the last four stages. -/
structure Env (V W : Type) where
  feats : Option (List String)
  algos : Option (List String)
  prelim : Prelim.Opts
  junk : Num × Num
  tr : List Num → List Num
  mid : Num × Num
  fit : List Num → Num × Num × Num
  subset : Prelim.SubsetOpts
  tests : Filter.Tests (List Num × List Num × List Bool)
  split : Option (List Nat)
  file : Option (List Int)
  lib : Mat Num → Mat Num → List (List Bool) → Sifted.Lib
  pearson : List (Num × Num) → Num × Num
  thr : Num
  clusters : Nat
  fill : Name → W
  rest : Nat → Stg → List (Val V W) → Except Err (List (Name × Val V W))

variable {V W : Type}

/-- The rows of a matrix given by `n`-entry columns; arrays are kept by rows, prelim.py:682-708,
sifted.py:764. -/
def rowsOf (n : Nat) (cols : List (List Num)) : List (List Num) :=
  (List.range n).map fun i => cols.map fun c => c.getD i .nan

/-- `PreprocessingStage._run`, preprocessing.py:139-188. -/
def runPreprocessing (env : Env V W) (vs : List (Val V W)) : Except Err (List (Name × Val V W)) :=
  match vs with
  | [.names feat, .names algo, .labels inst, .sources s, .table x, .table y, _] =>
    match Preprocessing.run Num.isNan ⟨x, y, s, feat, inst⟩ algo env.feats env.algos with
    | .error e => .error (.preprocessing e)
    | .ok o => .ok [(.inst_labels, .labels o.data.inst), (.feat_labels, .names o.data.feat),
        (.algo_labels, .names o.algo), (.x, .table o.data.x), (.y, .table o.data.y),
        (.s, .sources o.data.s), (.x_raw, .table o.data.x), (.y_raw, .table o.data.y)]
  | _ => .error .unmodelled

/-- The quantities PRELIM records about features and performances, prelim.py:677-734 and 288-314; `min_y` is a
single number. -/
def recorded (env : Env V W) (x y : Mat Num) (outs : List Prelim.Row) : List (Name × Val V W) :=
  let sx := (Prelim.columns x.ncols x.rows).map (Prelim.recordX env.prelim env.junk env.mid env.fit)
  let sy := Prelim.recordY env.prelim env.fit y.ncols outs
  [(.med_val, .numbers (sx.map (·.med))), (.iq_range, .numbers (sx.map (·.iqr))),
    (.hi_bound, .numbers (sx.map (·.hi))), (.lo_bound, .numbers (sx.map (·.lo))),
    (.min_x, .numbers (sx.map (·.min))), (.lambda_x, .numbers (sx.map (·.lambda))),
    (.mu_x, .numbers (sx.map (·.mu))), (.sigma_x, .numbers (sx.map (·.sigma))),
    (.min_y, .numbers [sy.1]), (.lambda_y, .numbers (sy.2.map (·.1))),
    (.sigma_y, .numbers (sy.2.map (·.2.2))), (.mu_y, .numbers (sy.2.map (·.2.1)))]

/-- `PrelimStage._run`, prelim.py:216-314: `y_raw` is the array `y` itself and is read after the
assignments to it (632, 656); the labels leave under the name `instlabels` (152, 311). -/
def runPrelim (env : Env V W) (vs : List (Val V W)) : Except Err (List (Name × Val V W)) :=
  match vs with
  | [.table x, .table y, .table xRaw, .table yRaw, .sources s, .labels inst, _, _] =>
    match Prelim.rows env.prelim y.rows, Prelim.outY env.prelim env.tr y.ncols y.rows with
    | some outs, some ys =>
      match Prelim.filter env.subset env.tests x.ncols env.split env.file
        { x := rowsOf x.rows.length
            (Prelim.outX env.prelim env.junk env.tr (Prelim.columns x.ncols x.rows))
          y := rowsOf y.rows.length ys
          xRaw := xRaw.rows
          yRaw := Prelim.yRawOut env.prelim (fun _ => yRaw.rows) 0 0
          yBin := outs.map (·.yBin), beta := outs.map (·.beta), numGood := outs.map (·.numGood)
          yBest := outs.map (·.yBest), p := outs.map (·.p), inst, s } with
      | .error e => .error (.subset e)
      | .ok (a, dense) =>
        .ok (recorded env x y outs ++
          [(.x, .table ⟨x.ncols, a.x⟩), (.y, .table ⟨y.ncols, a.y⟩), (.x_raw, .table ⟨xRaw.ncols, a.xRaw⟩),
            (.y_raw, .table ⟨yRaw.ncols, a.yRaw⟩), (.y_bin, .verdicts a.yBin),
            (.y_best, .numbers a.yBest), (.p, .counts a.p), (.num_good_algos, .counts a.numGood),
            (.beta, .flags a.beta), (.instlabels, .labels a.inst), (.data_dense, .dense dense.isSome),
            (.s, .sources a.s)])
    | _, _ => .error .prelim
  | _ => .error .unmodelled

/-- The correlations that SIFTED computes and returns, sifted.py:563-588; `None` with at most three features. -/
def correlations (env : Env V W) (x y : Mat Num) (yb : List (List Bool)) :
    Except Sifted.Err (Option Sifted.Performance) :=
  if x.ncols ≤ 3 then .ok none
  else
    match Sifted.selectFeatures (env.lib x y yb).argsort env.pearson (Prelim.columns x.ncols x.rows)
        (Prelim.columns y.ncols y.rows) env.thr with
    | .error e => .error e
    | .ok c => .ok (some c)

/-- `rho`, `pval`, `silhouette_scores` and `clust` as SIFTED returns them, sifted.py:562-711, each `None` if
its step is skipped. -/
def grounds (env : Env V W) (nalgos : Nat) (c : Option Sifted.Performance) (o : Sifted.Out (List Num)) :
    List (Name × Val V W) :=
  [(.rho, (c.map fun c => Val.table ⟨nalgos, c.rho⟩).getD (.other (env.fill .rho))),
    (.pval, (c.map fun c => Val.table ⟨nalgos, c.pval⟩).getD (.other (env.fill .pval))),
    (.silhouette_scores, (o.silhouettes.map fun l => Val.numbers (l.map .fin)).getD
      (.other (env.fill .silhouette_scores))),
    (.clust, (o.clust.map Val.verdicts).getD (.other (env.fill .clust)))]

/-- `SiftedStage._run`, sifted.py:356-386 and 527-711: the features are selected, everything else is
handed on. -/
def runSifted (env : Env V W) (vs : List (Val V W)) : Except Err (List (Name × Val V W)) :=
  match vs with
  | [.table x, .table y, .verdicts yb, xRaw, yRaw, beta, numGood, yBest, p, inst, .names feat, s, _, _,
      .dense present, _] =>
    match correlations env x y yb with
    | .error e => .error (.sifted e)
    | .ok c =>
      match Sifted.sifted (env.lib x y yb) ((c.map (·.rho)).getD []) env.thr env.clusters y.ncols
          (Prelim.columns x.ncols x.rows) feat (env.subset.byDensity && present) with
      | .error e => .error (.sifted e)
      | .ok o => .ok ([(.x, .table ⟨o.x.length, rowsOf x.rows.length o.x⟩), (.y, .table y),
          (.y_bin, .verdicts yb), (.x_raw, xRaw), (.y_raw, yRaw), (.beta, beta), (.num_good_algos, numGood), (.y_best, yBest),
          (.p, p), (.inst_labels, inst), (.s, s), (.feat_labels, .names o.featLabels),
          (.selvars, .counts o.selvars), (.idx, .counts o.idx)] ++ grounds env y.ncols c o)
  | _ => .error .unmodelled

/-- The stages of the default pipeline, instance_space.py:138-146. -/
def run (env : Env V W) : Nat → Stg → List (Val V W) → Except Err (List (Name × Val V W)) :=
  fun k s vs => match s with
    | .preprocessing => runPreprocessing env vs
    | .prelim => runPrelim env vs
    | .sifted => runSifted env vs
    | s => env.rest k s vs

/-- The initial inputs, instance_space.py:75-101: the metadata with its cells as numbers (`num`), and the
options.  Labels or sources that are not a Series are not tracked. -/
def args (env : Env V W) (num : V → Num) (m : Meta V) : Runner.Dict Name (Val V W)
  | .feature_names => some (.names m.featureNames)
  | .algorithm_names => some (.names m.algorithmNames)
  | .instance_labels => some (match m.labels with
    | .series l => .labels l
    | _ => .other (env.fill .instance_labels))
  | .instance_sources => some (match m.sources with
    | none => .sources none
    | some (.series l) => .sources (some l)
    | _ => .other (env.fill .instance_sources))
  | .features => some (.table ⟨m.featureNames.length, m.features.map (·.map num)⟩)
  | .algorithms => some (.table ⟨m.algorithmNames.length, m.algorithms.map (·.map num)⟩)
  | n => if n ∈ Pipeline.initial.map Prod.fst then some (.other (env.fill n)) else none

end Verif.EndToEnd
