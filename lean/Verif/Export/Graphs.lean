import Verif.Export.Model
import Mathlib.Data.List.Dedup
import Mathlib.Data.List.Sort
/-!
# Model of the plots (`save_instance_space_graphs` and the `_draw_*` functions of
`instancespace/_serialisers.py`)

A picture is what is drawn into the axes: the calls of `ax.scatter` in order and the outlines of the
polygons.  Sizes, colours of groups, legends and matplotlib's global state are not modelled, nor
are models without instances (where `np.max` raises) and labels that are not file names.
-/
set_option autoImplicit false

namespace Verif.Export

open Verif (Num)

/-- One call of `ax.scatter`, _serialisers.py:469-477, 506, 555-562, 604-612, 648, 651, 702, 705: the
label (empty if none is given), the instances and the values shown by colour. -/
structure Cloud where
  label : String
  instances : List Nat
  values : Option (List Num)
  deriving DecidableEq, Repr

/-- What `fig.savefig(output)` writes, _serialisers.py:483, 517, 568, 620, 657, 711. -/
structure Picture (α : Type) where
  title : String
  clouds : List Cloud
  patches : List (List (α × α))
  deriving DecidableEq, Repr

/-- `_draw_footprint`, _serialisers.py:662-677: one patch per polygon, from its exterior. -/
def outlines {α : Type} : Option (Geometry α) → List (List (α × α))
  | none => []
  | some (.polygon p) => [p.exterior]
  | some (.multi ps) => ps.map (·.exterior)
  | some .other => []

/-- `label.replace("_", " ")`, _serialisers.py:302, 313, 321, 328, 337, 346. -/
def spaced (l : String) : String := l.map fun ch => if ch = '_' then ' ' else ch

/-- `_draw_scatter`, _serialisers.py:486-519. -/
def drawScatter {α : Type} (title : String) (values : List Num) : Picture α :=
  ⟨title, [⟨"", List.range values.length, some values⟩], []⟩

/-- The instances with a given entry, `y_bin == 0` and `y_bin == 1`, _serialisers.py:644-645, 698-699. -/
def rowsWith (y : List Bool) (b : Bool) : List Nat :=
  (List.range y.length).filter fun t => y.getD t (!b) = b

/-- One group if it is not empty, _serialisers.py:647-651, 701-705. -/
def cloudIfAny (label : String) (rows : List Nat) : List Cloud :=
  if rows.isEmpty then [] else [⟨label, rows, none⟩]

/-- `_draw_binary_performance`, _serialisers.py:680-718 (the picture is saved twice, 711 and 718). -/
def drawBinary {α : Type} (title : String) (y : List Bool) : Picture α :=
  ⟨title, cloudIfAny "BAD" (rowsWith y false) ++ cloudIfAny "GOOD" (rowsWith y true), []⟩

/-- `_draw_good_bad_footprint`, _serialisers.py:625-659. -/
def drawGoodBad {α : Type} (title : String) (y : List Bool) (good : Option (Geometry α)) :
    Picture α :=
  ⟨title, cloudIfAny "BAD" (rowsWith y false) ++ cloudIfAny "GOOD" (rowsWith y true),
    if (rowsWith y true).isEmpty then [] else outlines good⟩

/-- `_draw_portfolio_selections`, _serialisers.py:522-570, and `_draw_portfolio_footprint`, 573-622,
with the groups of `portfolioGroups`. -/
def drawPortfolio {α : Type} (title : String) (algoLabels : List String) (p : List Int)
    (best : Option (List (Option (Geometry α)))) : Picture α :=
  let groups := portfolioGroups algoLabels p best.isSome
  ⟨title, groups.map fun g => ⟨g.label, g.instances, none⟩,
    groups.flatMap fun g => match g.footprint, best with
      | some i, some b => outlines (b.getD i none)
      | _, _ => []⟩

/-- `_draw_sources`, _serialisers.py:449-483: the sources in order, the last first. -/
def drawSources {α : Type} (s : List String) : Picture α :=
  ⟨"Sources", ((s.dedup.insertionSort (· ≤ ·)).reverse).map fun l =>
    ⟨l, (List.range s.length).filter fun t => s[t]? = some l, none⟩, []⟩

/-- The parts of the Model that are plotted, model.py:124-131; `good` and `best` are the polygons of
the footprints. -/
structure Plotted (α : Type) where
  featLabels : List String
  algoLabels : List String
  nfeats : Nat
  nalgos : Nat
  x : List (List Num)
  yRaw : List (List Num)
  yBin : List (List Bool)
  p : List Int
  numGood : List Num
  beta : List Bool
  s : Option (List String)
  yHat : List (List Bool)
  selection0 : List Int
  useSim : Bool
  good : List (Option (Geometry α))
  best : List (Option (Geometry α))

/-- `y_bin[:, i]`, _serialisers.py:327, 336, 345. -/
def boolColumn (m : List (List Bool)) (i : Nat) : List Bool := m.map fun r => r.getD i false

/-- `y_foot`, _serialisers.py:290-295. -/
def yFoot {α : Type} (d : Plotted α) : List (List Bool) := if d.useSim then d.yHat else d.yBin

/-- `p_foot`, _serialisers.py:290-295. -/
def pFoot {α : Type} (d : Plotted α) : List Int := if d.useSim then d.selection0 else d.p

/-- The plot of one feature, _serialisers.py:297-304. -/
def featurePlot {α : Type} (d : Plotted α) (i : Nat) : Except Err (String × Picture α) :=
  match d.featLabels[i]? with
  | none => .error .indexError
  | some l => .ok (s!"distribution_feature_{l}.png",
      drawScatter (spaced l) ((columnOf d.x i).map (plotFeature (columnOf d.x i))))

/-- The plots of one algorithm, _serialisers.py:306-348; `lg` is `log10(v + 1)`. -/
def algorithmPlots {α : Type} (lg : Num → Num) (d : Plotted α) (i : Nat) :
    List (Except Err (String × Picture α)) :=
  match d.algoLabels[i]? with
  | none => [.error .indexError]
  | some l =>
    [ .ok (s!"distribution_performance_global_normalized_{l}.png",
        drawScatter (spaced l) ((columnOf d.yRaw i).map (plotGlobal lg d.yRaw i))),
      .ok (s!"distribution_performance_individual_normalized_{l}.png",
        drawScatter (spaced l) ((columnOf d.yRaw i).map (plotIndividual (columnOf d.yRaw i)))),
      .ok (s!"binary_performance_{l}.png", drawBinary (spaced l) (boolColumn d.yBin i)),
      .ok (s!"binary_svm_{l}.png", drawBinary (spaced l) (boolColumn d.yHat i)),
      match d.good[i]? with
      | none => .error .indexError
      | some g => .ok (s!"footprint_{l}.png",
          drawGoodBad (spaced l ++ " Footprint") (boolColumn (yFoot d) i) g) ]

/-- Everything that `save_instance_space_graphs` draws, in order, _serialisers.py:297-394. -/
def graphActions {α : Type} (lg : Num → Num) (d : Plotted α) :
    List (Except Err (String × Picture α)) :=
  (List.range d.nfeats).map (featurePlot d) ++
  (List.range d.nalgos).flatMap (algorithmPlots lg d) ++
  [ .ok ("distribution_number_good_algos.png", drawScatter "Percentage of good algorithms"
      (d.numGood.map fun v => v / .fin d.nalgos)),
    .ok ("distribution_portfolio.png", drawPortfolio "Best algorithm" d.algoLabels d.p none),
    .ok ("distribution_svm_portfolio.png",
      drawPortfolio "Predicted best algorithm" d.algoLabels d.selection0 none),
    .ok ("distribution_beta_score.png", drawBinary "Beta score" d.beta) ] ++
  (match d.s with
    | none => []
    | some s => [.ok ("distribution_sources.png", drawSources s)]) ++
  [ .ok ("footprint_portfolio.png",
      drawPortfolio "Portfolio footprints" d.algoLabels (pFoot d) (some d.best)) ]

/-- `save_instance_space_graphs`, _serialisers.py:266-394. -/
def saveGraphs {α : Type} (lg : Num → Num) (isDir : Bool) (d : Plotted α) :
    List (String × Picture α) × Option Err :=
  if isDir then perform (graphActions lg d) else ([], some .valueError)

/-- A point lies within the limits of the axes (`set_xlim`, `set_ylim`), _serialisers.py:463-464,
507-508, 546-547, 596-597, 642-643, 696-697. -/
def visible (z : ℚ × ℚ) : Bool :=
  decide (-5 ≤ z.1 ∧ z.1 ≤ 5 ∧ -5 ≤ z.2 ∧ z.2 ≤ 5)

/-- `TraceStage._run`, stages/trace.py:290-311: the binary performances and the selections handed to
the analysis. -/
def traceArguments (useSim : Bool) (yBin yHat : List (List Bool)) (p selection0 : List Int) :
    List (List Bool) × List Int :=
  if useSim then (yHat, selection0) else (yBin, p)

end Verif.Export
