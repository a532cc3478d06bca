import Verif.EndToEnd.Model
import Verif.Cloister.Model
import Verif.Pilot.Gaps
import Verif.Pythia.Draws
/-!
# PILOT, CLOISTER and PYTHIA as stages of the pipeline

The models of the three stages on the typed values of the pipeline, on finite features; performances may be
missing.  TRACE is arbitrary.
-/
set_option autoImplicit false

namespace Verif.EndToEnd

open Verif (Num)
open Verif.Pipeline (Stg Name)
open Verif.Preprocessing (Mat)

variable {V W : Type}

/-- What the options and the libraries decide in the last four stages: the options of pilot.py:213-246 and
the libraries of PILOT, given the features (pilot.py:204); `pearsonr`, `ConvexHull` and the thresholds of
cloister.py:220-341; rounding, the option of weights (pythia.py:380) and the trained models of PYTHIA, given
the projection, the performances and the verdicts (pythia.py:346-430, with the z-scores and weights); values
that are not tracked; TRACE. -/
structure Late (V W : Type) where
  pilotLib : {p n q : Nat} → Matrix (Fin p) (Fin n) ℚ → Pilot.Lib ℚ p n q
  pilotOpts : (n q : Nat) → Pilot.Options ℚ n q
  pearson : {m : Nat} → List (Fin m → ℚ) → Fin m → Fin m → Num × Num
  qhull : List (Fin 2 → ℚ) → Option (List Nat)
  pThr : Num
  cThr : Num
  pythiaLib : Pythia.Lib
  useWeights : Bool
  fitted : Mat Num → Mat Num → List (List Bool) → Nat → Except Pythia.Err Pythia.SvmRes
  fill : Name → W
  trace : List (Val V W) → Except Err (List (Name × Val V W))

/-- A finite number as a rational; pilot.py:201-204 and cloister.py:185-188 compute with floating point
numbers, the models with exact ones. -/
def value : Num → ℚ
  | .fin q => q
  | _ => 0

/-- An array without NaN and infinities, the data on which pilot.py:176-330 and cloister.py:162-199 are
modelled. -/
def isFinite (m : Mat Num) : Bool :=
  m.rows.all fun r => r.length == m.ncols && r.all fun v => match v with
    | .fin _ => true
    | _ => false

/-- An array of numbers and NaN, without infinities: the performances on which pilot.py:176-330 is modelled. -/
def noInfinity (m : Mat Num) : Bool :=
  m.rows.all fun r => r.length == m.ncols && r.all fun v => match v with
    | .fin _ => true
    | .nan => true
    | _ => false

/-- The missing entries of an array with `p` rows and `n` columns, pilot.py:201-204. -/
def gapsOf (m : Mat Num) (p n : Nat) : Fin p → Fin n → Bool :=
  fun i j => ((m.rows.getD i []).getD j .nan).isNan

/-- The entries of a finite array with `p` rows and `n` columns, pilot.py:201-204. -/
def entries (m : Mat Num) (p n : Nat) : Matrix (Fin p) (Fin n) ℚ :=
  fun i j => value ((m.rows.getD i []).getD j .nan)

/-- An array of finite entries, pilot.py:264-268. -/
def tableOf {p n : Nat} (z : Matrix (Fin p) (Fin n) ℚ) : Mat Num :=
  ⟨n, List.ofFn fun i => List.ofFn fun j => .fin (z i j)⟩

/-- An array of points of the plane, cloister.py:187-199. -/
def pointsOf (l : List (Fin 2 → ℚ)) : Mat Num := ⟨2, l.map fun p => [.fin (p 0), .fin (p 1)]⟩

/-- A number of numpy that may be NaN, pilot.py:271 and 518. -/
def orNan : Option ℚ → Num
  | some q => .fin q
  | none => .nan

/-- An array given by its columns, as `x0` and `alpha`, pilot.py:244-246. -/
def columnsOf {m : Nat} (l : List (Fin m → ℚ)) : Mat Num :=
  ⟨l.length, List.ofFn fun i => l.map fun c => .fin (c i)⟩

/-- What PILOT returns, pilot.py:289-318; `x0`, `alpha`, `eoptim` and `perf` are `None` in analytic mode
(208-211). -/
def pilotOut (le : Late V W) {p n q : Nat} (gap : Fin p → Fin q → Bool) (o : Pilot.Out ℚ p n q) : List (Name × Val V W) :=
  [(.X0, (o.x0.map fun l => Val.table (columnsOf l)).getD (.other (le.fill .X0))),
    (.alpha, (o.alpha.map fun l => Val.table (columnsOf l)).getD (.other (le.fill .alpha))),
    (.eoptim, (o.eoptim.map fun l => Val.numbers (l.map .fin)).getD (.other (le.fill .eoptim))),
    (.perf, (o.perf.map fun l => Val.numbers (l.map orNan)).getD (.other (le.fill .perf))),
    (.a, .table (tableOf o.a)), (.z, .table (tableOf o.z)), (.c, .table (tableOf o.c)),
    (.b, .table (tableOf o.b)), (.error, .numbers [orNan (Pilot.gapError gap o)]),
    (.r2, .numbers ((Pilot.gapR2 gap o).map orNan)),
    (.pilot_summary, .frame (("0", o.summary.rows.map .word) ::
      o.summary.columns.map fun c => (c.1, c.2.map fun q => .num (.fin q))))]

/-- `PilotStage._run`, pilot.py:160-165, on finite features with as many performances as instances;
performances may be missing. -/
def runPilot (le : Late V W) (vs : List (Val V W)) : Except Err (List (Name × Val V W)) :=
  match vs with
  | [.table x, .table y, .names feat, _] =>
    if isFinite x && noInfinity y && y.rows.length == x.rows.length then
      match Pilot.pilotGaps (le.pilotLib (entries x x.rows.length x.ncols))
          (entries x x.rows.length x.ncols) (entries y x.rows.length y.ncols)
          (gapsOf y x.rows.length y.ncols) feat (le.pilotOpts x.ncols y.ncols) with
      | .error e => .error (.pilot e)
      | .ok o => .ok (pilotOut le (gapsOf y x.rows.length y.ncols) o)
    else .error .unmodelled
  | _ => .error .unmodelled

/-- `CloisterStage._run`, cloister.py:143-159, on finite data; `np.min` raises without instances (319), and
`pearsonr` (230) with one instance and two features. -/
def runCloister (le : Late V W) (vs : List (Val V W)) : Except Err (List (Name × Val V W)) :=
  match vs with
  | [.table x, .table a, _] =>
    if isFinite x && isFinite a && a.ncols == x.ncols && a.rows.length == 2 then
      match List.ofFn (entries x x.rows.length x.ncols) with
      | [] => .error .cloister
      | r :: l =>
        if l = [] ∧ 1 < x.ncols then .error .cloister
        else
          let o := Cloister.cloister le.qhull (le.pearson (r :: l)) le.pThr le.cThr (entries a 2 x.ncols) r l
          .ok [(.z_edge, .table (pointsOf o.1)), (.z_ecorr, .table (pointsOf o.2))]
    else .error .unmodelled
  | _ => .error .unmodelled

/-- A number of PYTHIA's summary, `replace({np.nan: ""})`, pythia.py:881. -/
def shown (v : Num) : Entry := if v.isNan then .word "" else .num v

/-- The data frame of PYTHIA's summary with its headings, pythia.py:837-881. -/
def summaryFrame (s : Pythia.Summary) : List (String × List Entry) :=
  [("Algorithms", s.algorithms.map .word), ("Avg_Perf_all_instances", s.avgPerf.map shown),
    ("Std_Perf_all_instances", s.stdPerf.map shown), ("Probability_of_good", s.probGood.map shown),
    ("Avg_Perf_selected_instances", s.avgSelected.map shown),
    ("Std_Perf_selected_instances", s.stdSelected.map shown),
    ("CV_model_accuracy", s.accuracy.map shown), ("CV_model_precision", s.precision.map shown),
    ("CV_model_recall", s.recall.map shown), ("BoxConstraint", s.boxConstraint.map shown),
    ("KernelScale", s.kernelScale.map shown)]

/-- A matrix of finite numbers with `n` columns, pythia.py:331-332. -/
def exactTable (n : Nat) (m : List (List ℚ)) : Mat Num := ⟨n, m.map (·.map .fin)⟩

/-- What PYTHIA returns, pythia.py:492-511; `mu`, `sigma`, the folds and the machines are not tracked. -/
def pythiaOut (le : Late V W) (n : Nat) (w : List (List Num)) (o : Pythia.Out) : List (Name × Val V W) :=
  [(.mu, .other (le.fill .mu)), (.sigma, .other (le.fill .sigma)), (.w, .table ⟨n, w⟩),
    (.cp, .other (le.fill .cp)), (.svm, .other (le.fill .svm)),
    (.cvcmat, .table (exactTable 4 (o.trained.cvcmat.map fun r => r.map fun (c : Nat) => (c : ℚ)))),
    (.y_sub, .verdicts o.trained.ySub), (.y_hat, .verdicts o.trained.yHat),
    (.pr0_sub, .table (exactTable n o.trained.pr0sub)), (.pr0_hat, .table (exactTable n o.trained.pr0hat)),
    (.box_consnt, .numbers (o.trained.boxConsnt.map .fin)),
    (.k_scale, .numbers (o.trained.kScale.map .fin)),
    (.accuracy, .numbers (o.trained.accuracy.map .fin)),
    (.precision, .numbers (o.trained.precision.map .fin)),
    (.recall, .numbers (o.trained.recall.map .fin)), (.selection0, .counts o.selection0.vals),
    (.selection1, .counts o.selection1.vals), (.pythia_summary, .frame (summaryFrame o.summary))]

/-- `PythiaStage._run`, pythia.py:272-282.  The number of algorithms is that of the columns of `y_raw`; in
the code that of `y_bin` (327), which PRELIM makes from the same columns. -/
def runPythia (le : Late V W) (vs : List (Val V W)) : Except Err (List (Name × Val V W)) :=
  match vs with
  | [.table z, .table y, .verdicts yBin, .numbers yBest, .names algo, _, _] =>
    match Pythia.weightMatrix le.useWeights yBin.length y.ncols y.rows with
    | .error e => .error (.pythia e)
    | .ok w =>
      match Pythia.pythia le.pythiaLib y.ncols algo y.rows yBin yBest (le.fitted z y yBin) with
      | .error e => .error (.pythia e)
      | .ok o => .ok (pythiaOut le y.ncols w o)
  | _ => .error .unmodelled

/-- The last four stages, instance_space.py:142-145. -/
def runLate (le : Late V W) : Stg → List (Val V W) → Except Err (List (Name × Val V W))
  | .pilot, vs => runPilot le vs
  | .pythia, vs => runPythia le vs
  | .cloister, vs => runCloister le vs
  | .trace, vs => le.trace vs
  | _, _ => .error .unmodelled

end Verif.EndToEnd
