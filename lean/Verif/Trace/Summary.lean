import Verif.Trace.Model
/-!
# Model of the summary table of TRACE (`instancespace/stages/trace.py`, lines 471-505)

Areas, densities and purities are rational numbers here.
-/
set_option autoImplicit false

namespace Verif.Trace

variable {G : Type}

/-- `data_labels`, trace.py:473-484. -/
def dataLabels : List String :=
  ["Area_Good", "Area_Good_Normalised", "Density_Good", "Density_Good_Normalised", "Purity_Good",
   "Area_Best", "Area_Best_Normalised", "Density_Best", "Density_Best_Normalised", "Purity_Best"]

/-- `self.summary(footprint, space.area, space.density)`, trace.py:491, 494-498 and 779-797. -/
def summaryOf (f space : Footprint G ℚ) : List Num :=
  summary (.fin f.area) (.fin f.density) (.fin f.purity) (.fin space.area) (.fin space.density)

/-- The loop `for i, _ in enumerate(self.algo_labels)`, trace.py:490-501, from position `i` on:
`good[i]` and `best[i]` raise IndexError when there are more labels than footprints. -/
def summaryRows (out : Out G ℚ) : Nat → List String → Except Err (List (List Num))
  | _, [] => .ok []
  | i, _ :: labels =>
    match out.good[i]?, out.best[i]? with
    | some g, some b =>
      match summaryRows out (i + 1) labels with
      | .error e => .error e
      | .ok rows => .ok ((summaryOf g out.space ++ summaryOf b out.space) :: rows)
    | _, _ => .error .indexError

/-- The summary table, trace.py:471-505: the column `Algorithm` beside the columns `data_labels`.  A row
of the table is a label and the numbers under `data_labels`. -/
def summaryTable (labels : List String) (out : Out G ℚ) : Except Err (List (String × List Num)) :=
  match summaryRows out 0 labels with
  | .error e => .error e
  | .ok rows => .ok (labels.zip rows)

end Verif.Trace
