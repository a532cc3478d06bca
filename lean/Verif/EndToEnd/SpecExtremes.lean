import Verif.EndToEnd.SpecTrace
/-!
# Footprints of algorithms that are good, or best, everywhere or nowhere
-/
set_option autoImplicit false

namespace Verif.EndToEnd

open Verif (Num)
open Verif.Pipeline (Name)
open Verif.Runner (Dict)

variable {V G : Type}

/-- Algorithm `j` is marked on every instance. -/
def Always (y : List (List Bool)) (j : Nat) : Prop := ∀ i, i < y.length → At y i j true

/-- Algorithm `j` is marked on no instance. -/
def Never (y : List (List Bool)) (j : Nat) : Prop := ∀ i, ¬ At y i j true

/-- A footprint without polygon, all measures of which are zero. -/
structure Blank (f : Trace.Footprint G ℚ) : Prop where
  polygon : f.polygon = none
  area : f.area = 0
  elements : f.elements = 0
  good : f.good = 0
  density : f.density = 0
  purity : f.purity = 0

/-- TRACE's summary has the number `v` in column `column` of the row of algorithm `j`. -/
def Reads (d : Dict Name (Val V (Kept G))) (column : String) (j : Nat) (v : Num) : Prop :=
  ∃ f l, d .trace_summary = some (.frame f) ∧ f.lookup column = some l ∧ l[j]? = some (.num v)

/-- The row of algorithm `j` says that its good footprint covers the whole space. -/
structure GoodWhole (d : Dict Name (Val V (Kept G))) (j : Nat) : Prop where
  area : Reads d "Area_Good_Normalised" j 1
  density : Reads d "Density_Good_Normalised" j 1
  purity : Reads d "Purity_Good" j 1

/-- The row of algorithm `j` says that its best footprint covers the whole space. -/
structure BestWhole (d : Dict Name (Val V (Kept G))) (j : Nat) : Prop where
  area : Reads d "Area_Best_Normalised" j 1
  density : Reads d "Density_Best_Normalised" j 1
  purity : Reads d "Purity_Best" j 1

/-- The row of algorithm `j` has only zeros for its good footprint. -/
structure GoodNothing (d : Dict Name (Val V (Kept G))) (j : Nat) : Prop where
  area : Reads d "Area_Good" j 0
  areaNormalised : Reads d "Area_Good_Normalised" j 0
  density : Reads d "Density_Good" j 0
  densityNormalised : Reads d "Density_Good_Normalised" j 0
  purity : Reads d "Purity_Good" j 0

/-- The row of algorithm `j` has only zeros for its best footprint. -/
structure BestNothing (d : Dict Name (Val V (Kept G))) (j : Nat) : Prop where
  area : Reads d "Area_Best" j 0
  areaNormalised : Reads d "Area_Best_Normalised" j 0
  density : Reads d "Density_Best" j 0
  densityNormalised : Reads d "Density_Best_Normalised" j 0
  purity : Reads d "Purity_Best" j 0

/-- On every instance algorithm `j` has a larger raw performance than every other one. -/
def Largest (y : Preprocessing.Mat Num) (j : Nat) : Prop :=
  ∀ r ∈ y.rows, ∃ v : ℚ, r[j]? = some (.fin v) ∧ ∀ (i : Nat) (w : Num), i ≠ j → r[i]? = some w → ∃ q : ℚ, w = .fin q ∧ q < v

end Verif.EndToEnd
