import Verif.Num
import Mathlib.Algebra.Order.Floor.Ring
import Mathlib.Data.Rat.Floor
/-!
# Model of `instancespace/_serialisers.py` and `instancespace/model.py`: files, colours and plots

Cells of matrices are of any type `α`; they are only moved.  A matrix is the list of its rows.  The
file system is the list of written files in the order of writing (a later file of the same name
replaces an earlier one).  Not modelled: the text format of CSV files, drawing (only which points
and polygons are drawn under which name), file names that the file system rejects, the MAT file.
-/
set_option autoImplicit false

namespace Verif.Export

open Verif (Num)

/-- Exceptions of Python that can leave the functions of _serialisers.py:29-446 (raised at 39, 208, 275,
by pandas at 403 and by indexing at 119 and 223). -/
inductive Err
  | valueError | indexError
  deriving DecidableEq, Repr

/-! ### CSV files -/

/-- A CSV file written from an array: column names and, for each row, its name and cells;
_serialisers.py:397-406. -/
structure Table (α : Type) where
  columns : List String
  rows : List (String × List α)
  deriving DecidableEq, Repr

/-- A `pd.DataFrame` with its columns, e.g. the summaries; _serialisers.py:179-199.  The name `0` of
the first column of PILOT's summary is the string `"0"` here. -/
abbrev Frame (α : Type) := List (String × List α)

/-- The content of a file written by `to_csv`, _serialisers.py:181-199, 217 and 403. -/
inductive File (α : Type)
  | array (t : Table α)
  | frame (f : Frame α)
  deriving DecidableEq, Repr

/-- `_write_array_to_csv`, _serialisers.py:397-406: pandas raises a `ValueError` when the shape of
the data does not match the names. -/
def writeArray {α : Type} (name : String) (data : List (List α)) (columns rows : List String) :
    Except Err (String × File α) :=
  if data.length = rows.length ∧ ∀ r ∈ data, r.length = columns.length then
    .ok (name, .array ⟨columns, rows.zip data⟩)
  else .error .valueError

/-- `_make_bind_labels`, _serialisers.py:421-424. -/
def bindLabels (n : Nat) : List String := (List.range n).map fun i => s!"bnd_pnt_{i + 1}"

/-- The files of the boundaries, _serialisers.py:104-116.  When CLOISTER finds no hull it returns an array
of one axis without entries (cloister.py:283 and 286, here the empty list), which pandas takes for one
column: two names do not fit it. -/
def writePoints {α : Type} (name : String) (pts : List (List α)) : Except Err (String × File α) :=
  if pts.isEmpty then .error .valueError
  else writeArray name pts ["z_1", "z_2"] (bindLabels pts.length)

/-- A shapely polygon: the closed exterior ring, read at _serialisers.py:48-59, and the rings of its holes. -/
structure Polygon (α : Type) where
  exterior : List (α × α)
  holes : List (List (α × α))

/-- A shapely geometry as distinguished at _serialisers.py:48-59 and 74-85; `other`: neither case. -/
inductive Geometry (α : Type)
  | polygon (p : Polygon α)
  | multi (ps : List (Polygon α))
  | other

/-- The coordinates collected at _serialisers.py:47-59 and 73-85 (without the uninitialised first row). -/
def coords {α : Type} : Geometry α → List (α × α)
  | .polygon p => p.exterior
  | .multi ps => ps.flatMap (·.exterior)
  | .other => []

/-- `boundaries[1:-1, :]`, _serialisers.py:61 and 87: `junk` is the row of `np.empty((1, 2))`. -/
def boundaries {α : Type} (junk : α × α) (g : Geometry α) : List (α × α) :=
  ((junk :: coords g).drop 1).dropLast

/-- The parts of a `Model` that are exported, data/model.py:19-71, 163-199, 203-249, 253-285,
289-347, 429-463. -/
structure Export (α : Type) where
  instLabels : List String
  featLabels : List String
  algoLabels : List String
  /-- `data.y.shape[1]`. -/
  nalgos : Nat
  x : List (List α)
  xRaw : List (List α)
  y : List (List α)
  yRaw : List (List α)
  yBin : List (List α)
  numGood : List α
  beta : List α
  p : List α
  z : List (List α)
  zEdge : List (List α)
  zEcorr : List (List α)
  /-- `sifted_out.idx` and `feat_sel.idx`. -/
  idx : List Nat
  yHat : List (List α)
  selection0 : List α
  /-- The polygons of the footprints; `none`: no polygon. -/
  best : List (Option (Geometry α))
  good : List (Option (Geometry α))
  traceSummary : Frame α
  pilotSummary : Frame α
  pythiaSummary : Frame α

/-- The name of a footprint's file, _serialisers.py:68 and 94. -/
def footprintName (label suffix : String) : String := s!"footprint_{label}_{suffix}.csv"

/-- One footprint, _serialisers.py:44-69 and 71-95.  A footprint that is `None` and a footprint
without polygon are one case. -/
def footprintAction {α : Type} (junk : α × α) (algoLabels : List String)
    (fps : List (Option (Geometry α))) (suffix : String) (i : Nat) :
    List (Except Err (String × File α)) :=
  match fps[i]? with
  | none => [.error .indexError]
  | some none => []
  | some (some g) =>
      match algoLabels[i]? with
      | none => [.error .indexError]
      | some l =>
          let b := boundaries junk g
          [writeArray (footprintName l suffix) (b.map fun q => [q.1, q.2]) ["z_1", "z_2"]
            (bindLabels b.length)]

/-- The loop over the algorithms, _serialisers.py:41-95. -/
def footprintActions {α : Type} (junk : α × α) (e : Export α) : List (Except Err (String × File α)) :=
  (List.range e.nalgos).flatMap fun i =>
    footprintAction junk e.algoLabels e.best "best" i ++ footprintAction junk e.algoLabels e.good "good" i

/-- One row of `m[:, idx]`, _serialisers.py:119 and 223; `IndexError` for an index out of range. -/
def takeRow {α : Type} (r : List α) : List Nat → Except Err (List α)
  | [] => .ok []
  | i :: idx =>
      match r[i]? with
      | none => .error .indexError
      | some v =>
          match takeRow r idx with
          | .error e => .error e
          | .ok l => .ok (v :: l)

/-- `m[:, idx]`, _serialisers.py:119 and 223. -/
def takeColumns {α : Type} (idx : List Nat) : List (List α) → Except Err (List (List α))
  | [] => .ok []
  | r :: m =>
      match takeRow r idx with
      | .error e => .error e
      | .ok l =>
          match takeColumns idx m with
          | .error e => .error e
          | .ok ls => .ok (l :: ls)

/-- Writing the raw features, _serialisers.py:118-123 and 222-227; `f` is applied to the selected
columns. -/
def rawFeatures {α : Type} (name : String) (f : List (List α) → List (List α)) (e : Export α) :
    Except Err (String × File α) :=
  match takeColumns e.idx e.xRaw with
  | .error er => .error er
  | .ok m => writeArray name (f m) e.featLabels e.instLabels

/-- A one-dimensional array as a single column, _serialisers.py:148-165 and 172-177. -/
def asColumn {α : Type} (l : List α) : List (List α) := l.map fun v => [v]

/-- `summary.iloc[:, idx]`, _serialisers.py:179. -/
def pickFrame {α : Type} (f : Frame α) : List Nat → Except Err (Frame α)
  | [] => .ok []
  | i :: idx =>
      match f[i]? with
      | none => .error .indexError
      | some c =>
          match pickFrame f idx with
          | .error e => .error e
          | .ok l => .ok (c :: l)

/-- `rename(columns={old: new})`, _serialisers.py:180, 188 and 195. -/
def rename {α : Type} (old new : String) (f : Frame α) : Frame α :=
  f.map fun c => (if c.1 = old then new else c.1, c.2)

/-- The columns of the footprint summary that are exported, _serialisers.py:179. -/
def traceColumns : List Nat := [0, 2, 4, 5, 7, 9, 10]

/-- The footprint summary, _serialisers.py:179-184. -/
def traceAction {α : Type} (e : Export α) : Except Err (String × File α) :=
  match pickFrame e.traceSummary traceColumns with
  | .error er => .error er
  | .ok f => .ok ("footprint_performance.csv", .frame (rename "Algorithm" "Row" f))

/-- Everything that `save_instance_space_to_csv` writes, in order; _serialisers.py:41-199.
The results of CLOISTER and PILOT's summary are always there (data/model.py:203-285), so the tests
for `None` of lines 104 and 186 are left out. -/
def csvActions {α : Type} (junk : α × α) (e : Export α) : List (Except Err (String × File α)) :=
  footprintActions junk e ++
  [ writeArray "coordinates.csv" e.z ["z_1", "z_2"] e.instLabels,
    writePoints "bounds.csv" e.zEdge,
    writePoints "bounds_prunned.csv" e.zEcorr,
    rawFeatures "feature_raw.csv" id e,
    writeArray "feature_process.csv" e.x e.featLabels e.instLabels,
    writeArray "algorithm_raw.csv" e.yRaw e.algoLabels e.instLabels,
    writeArray "algorithm_process.csv" e.y e.algoLabels e.instLabels,
    writeArray "algorithm_bin.csv" e.yBin e.algoLabels e.instLabels,
    writeArray "good_algos.csv" (asColumn e.numGood) ["NumGoodAlgos"] e.instLabels,
    writeArray "beta_easy.csv" (asColumn e.beta) ["IsBetaEasy"] e.instLabels,
    writeArray "portfolio.csv" (asColumn e.p) ["Best_Algorithm"] e.instLabels,
    writeArray "algorithm_svm.csv" e.yHat e.algoLabels e.instLabels,
    writeArray "portfolio_svm.csv" (asColumn e.selection0) ["Best_Algorithm"] e.instLabels,
    traceAction e,
    .ok ("projection_matrix.csv", .frame (rename "0" "Row" e.pilotSummary)),
    .ok ("svm_table.csv", .frame (rename "Algorithms" "Row" e.pythiaSummary)) ]

/-- The statements of _serialisers.py:41-199 and 210-263 are executed until one raises. -/
def perform {β : Type} : List (Except Err β) → List β × Option Err
  | [] => ([], none)
  | .error e :: _ => ([], some e)
  | .ok f :: l => (f :: (perform l).1, (perform l).2)

/-- Effect of `save_instance_space_to_csv`, _serialisers.py:29-199: the files written, the exception, and
the exported object afterwards. -/
structure Result (α : Type) where
  files : List (String × File α)
  error : Option Err
  after : Export α

/-- `save_instance_space_to_csv`, _serialisers.py:29-199.  The renamed frames are those of the model
itself (lines 187-188 and 194-195); the renaming of the footprint summary works on a copy. -/
def saveCsv {α : Type} (junk : α × α) (isDir : Bool) (e : Export α) : Result α :=
  if isDir then
    let r := perform (csvActions junk e)
    { files := r.1, error := r.2,
      after := if r.2 = none then
        { e with pilotSummary := rename "0" "Row" e.pilotSummary,
                 pythiaSummary := rename "Algorithms" "Row" e.pythiaSummary } else e }
  else { files := [], error := some .valueError, after := e }

/-- What a name refers to after all files are written (`to_csv` at _serialisers.py:403 replaces an
existing file): the last file of that name. -/
def onDisk {β : Type} (files : List (String × β)) (name : String) : Option β :=
  (files.reverse.find? fun f => f.1 = name).map (·.2)

/-! ### Colours -/

/-- `np.min`, NaN as soon as a value is NaN; _serialisers.py:280-288, 430-432, 441-443. -/
def npMin : List Num → Num
  | [] => .nan
  | a :: l => l.foldl (fun m v => if m.isNan || v.isNan then .nan else if v.lt m then v else m) a

/-- `np.max`, NaN as soon as a value is NaN; _serialisers.py:280-287, 430, 441. -/
def npMax : List Num → Num
  | [] => .nan
  | a :: l => l.foldl (fun m v => if m.isNan || v.isNan then .nan else if m.lt v then v else m) a

/-- `np.floor(...).astype(np.int_)`, _serialisers.py:431-433; the integer obtained from NaN or an
infinity is undefined, here NaN. -/
def floorInt : Num → Num
  | .fin q => .fin ⌊q⌋
  | _ => .nan

/-- `np.round`, _serialisers.py:442: halves go to the even integer. -/
def roundEven (q : ℚ) : Int :=
  if q - ⌊q⌋ < 1 / 2 then ⌊q⌋
  else if 1 / 2 < q - ⌊q⌋ then ⌊q⌋ + 1
  else if ⌊q⌋ % 2 = 0 then ⌊q⌋ else ⌊q⌋ + 1

/-- `np.round(...).astype(np.int_)`, _serialisers.py:442-444, undefined as in `floorInt`. -/
def roundInt : Num → Num
  | .fin q => .fin (roundEven q)
  | _ => .nan

/-- `255.0 * ((data - min) / range)`, _serialisers.py:432 and 443, for one value and the values that
minimum and maximum are taken of. -/
def scaled (l : List Num) (v : Num) : Num := .fin 255 * ((v - npMin l) / (npMax l - npMin l))

/-- Column `j` of a matrix, `axis=0` at _serialisers.py:430-432. -/
def columnOf (m : List (List Num)) (j : Nat) : List Num := m.map fun r => r.getD j .nan

/-- `_colour_scale`, _serialisers.py:427-435: by column, rounded down. -/
def colourScale (m : List (List Num)) : List (List Num) :=
  m.map fun r => r.mapIdx fun j v => floorInt (scaled (columnOf m j) v)

/-- `_colour_scale_g`, _serialisers.py:438-446: over the whole matrix, rounded. -/
def colourScaleG (m : List (List Num)) : List (List Num) :=
  m.map fun r => r.map fun v => roundInt (scaled m.flatten v)

/-- Everything that `save_instance_space_for_web` writes, in order, _serialisers.py:210-263
(without instances `np.max` raises; that case is not modelled);
`table` is the colour table. -/
def webActions (table : Frame Num) (e : Export Num) : List (Except Err (String × File Num)) :=
  [ .ok ("color_table.csv", .frame table),
    rawFeatures "feature_raw_color.csv" colourScale e,
    writeArray "algorithm_raw_single_color.csv" (colourScale e.yRaw) e.algoLabels e.instLabels,
    writeArray "feature_process_color.csv" (colourScale e.x) e.featLabels e.instLabels,
    writeArray "algorithm_process_single_color.csv" (colourScale e.y) e.algoLabels e.instLabels,
    writeArray "algorithm_raw_color.csv" (colourScaleG e.yRaw) e.algoLabels e.instLabels,
    writeArray "algorithm_process_color.csv" (colourScaleG e.y) e.algoLabels e.instLabels,
    writeArray "good_algos_color.csv" (colourScaleG (asColumn e.numGood)) ["NumGoodAlgos"]
      e.instLabels ]

/-- `save_instance_space_for_web`, _serialisers.py:202-263. -/
def saveWeb (table : Frame Num) (isDir : Bool) (e : Export Num) :
    List (String × File Num) × Option Err :=
  if isDir then perform (webActions table e) else ([], some .valueError)

/-! ### Plots -/

/-- `x_aux`, _serialisers.py:280-281, for one column. -/
def plotFeature (col : List Num) (v : Num) : Num := (v - npMin col) / (npMax col - npMin col)

/-- `y_ind`, _serialisers.py:283-284, for one column: the division binds stronger. -/
def plotIndividual (col : List Num) (v : Num) : Num := v - npMin col / (npMax col - npMin col)

/-- `y_glb`, _serialisers.py:286-288, for one column of the matrix `m`; `lg` is `log10(v + 1)`. -/
def plotGlobal (lg : Num → Num) (m : List (List Num)) (j : Nat) (v : Num) : Num :=
  (lg v - npMin (m.flatten.map lg)) /
    (npMax ((columnOf m j).map lg) - npMin ((columnOf m j).map lg))

/-- A group of points drawn together, _serialisers.py:552-563 and 602-616: the label in the legend, the
instances, and the footprint drawn with them. -/
structure Group where
  label : String
  instances : List Nat
  footprint : Option Nat
  deriving DecidableEq, Repr

/-- The label of group `i`, _serialisers.py:561 and 611. -/
def groupLabel (algoLabels : List String) (i : Nat) : String :=
  if i = 0 then "None"
  else (algoLabels.getD (i - 1) "").map fun ch => if ch = '_' then ' ' else ch

/-- The instances with value `i`, _serialisers.py:555-556 and 605-606. -/
def instancesOf (p : List Int) (i : Nat) : List Nat :=
  (List.range p.length).filter fun t => p.getD t (-1) = (i : Int)

/-- The groups of `_draw_portfolio_selections`, _serialisers.py:522-570, and, with the footprints
`best[i]`, of `_draw_portfolio_footprint`, _serialisers.py:573-622.  A group without instances is
skipped. -/
def portfolioGroups (algoLabels : List String) (p : List Int) (footprints : Bool) : List Group :=
  (List.range algoLabels.length).filterMap fun i =>
    if (instancesOf p i).isEmpty then none
    else some ⟨groupLabel algoLabels i, instancesOf p i, if footprints then some i else none⟩

/-! ### The zip archive -/

/-- A file of the output directory found by `os.walk`: its directory relative to the output
directory, its name and content; model.py:165-166. -/
structure Entry (β : Type) where
  dir : List String
  name : String
  content : β

/-- The entries of the archive, model.py:159-170: name in the archive and content.  The archive
itself is among the files and is ignored like any other file of its name. -/
def zipEntries {β : Type} (zipName : String) (files : List (Entry β)) : List (String × β) :=
  (files.filter fun f => !(f.name = ".gitignore" || f.name = zipName)).map fun f =>
    ("output/" ++ f.name, f.content)

end Verif.Export
