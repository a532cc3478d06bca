import Verif.EndToEnd.Model
import Verif.Pipeline.Whole
import Verif.Export.Model
/-!
# From the Model to the CSV files

What `Model.save_to_csv` hands over to the serialiser, in terms of the Model made by the pipeline.
-/
set_option autoImplicit false

namespace Verif.EndToEnd

open Verif (Num)
open Verif.Pipeline (ModelObj)
open Verif.Export (Export)

variable {V W α O : Type}

/-- How labels, numbers, truth values, counts and words are written into a CSV file, _serialisers.py:397-406
(pandas decides). -/
structure Text (V α : Type) where
  label : V → String
  num : Num → α
  bool : Bool → α
  count : Nat → α
  word : String → α

/-- An attribute of a part of the Model, e.g. `data.x_raw`, _serialisers.py:119. -/
def attr (part : List (String × Val V W)) (name : String) : Option (Val V W) := part.lookup name

/-- What `save_instance_space_to_csv` reads, model.py:90-98 and _serialisers.py:41-177: the parts `data`
and `sifted`; what it reads of the results of the last four stages is in `rest`.  `none`: a value of
another type. -/
def exportOf (tx : Text V α) (rest : Export α) (m : ModelObj (Val V W) O) : Option (Export α) :=
  match attr m.data "inst_labels", attr m.data "feat_labels", attr m.data "algo_labels",
    attr m.data "x", attr m.data "y", attr m.data "x_raw", attr m.data "y_raw", attr m.data "y_bin",
    attr m.data "num_good_algos", attr m.data "beta", attr m.data "p", attr m.sifted "idx" with
  | some (.labels inst), some (.names feat), some (.names algo), some (.table x), some (.table y),
    some (.table xr), some (.table yr), some (.verdicts yb), some (.counts n), some (.flags beta),
    some (.counts p), some (.counts idx) =>
    some { rest with
      instLabels := inst.map tx.label, featLabels := feat, algoLabels := algo, nalgos := y.ncols
      x := x.rows.map (·.map tx.num), y := y.rows.map (·.map tx.num)
      xRaw := xr.rows.map (·.map tx.num), yRaw := yr.rows.map (·.map tx.num)
      yBin := yb.map (·.map tx.bool), numGood := n.map tx.count, beta := beta.map tx.bool
      p := p.map tx.count, idx := idx }
  | _, _, _, _, _, _, _, _, _, _, _, _ => none

/-- An entry of a frame as text, _serialisers.py:186-199. -/
def Text.entry (tx : Text V α) : Entry → α
  | .word s => tx.word s
  | .num v => tx.num v

/-- What the serialiser reads of the results of PILOT, CLOISTER and PYTHIA, _serialisers.py:97-116, 166-177
and 186-199; what it reads of TRACE's results stays that of `rest`.  `none`: a value of another type. -/
def lateOf (tx : Text V α) (rest : Export α) (m : ModelObj (Val V W) O) : Option (Export α) :=
  match attr m.pilot "z", attr m.pilot "summary", attr m.cloister "z_edge", attr m.cloister "z_ecorr",
    attr m.pythia "y_hat", attr m.pythia "selection0", attr m.pythia "summary" with
  | some (.table z), some (.frame ps), some (.table ze), some (.table zc), some (.verdicts yh),
    some (.counts sel), some (.frame pys) =>
    some { rest with
      z := z.rows.map (·.map tx.num), zEdge := ze.rows.map (·.map tx.num)
      zEcorr := zc.rows.map (·.map tx.num), yHat := yh.map (·.map tx.bool)
      selection0 := sel.map tx.count
      pilotSummary := ps.map fun c => (c.1, c.2.map tx.entry)
      pythiaSummary := pys.map fun c => (c.1, c.2.map tx.entry) }
  | _, _, _, _, _, _, _ => none

end Verif.EndToEnd
