import Verif.EndToEnd.SpecFiles
import Verif.EndToEnd.Late
import Verif.Export.Spec
import Verif.Cloister.Spec
import Verif.Pythia.Spec
/-!
# Specification of the pipeline with PILOT, CLOISTER and PYTHIA
-/
set_option autoImplicit false

namespace Verif.EndToEnd

open Verif (Num)
open Verif.Pipeline (outputs)
open Verif.Export (onDisk Holds)

variable {V W α : Type}

/-- The last four stages of the pipeline are PILOT, CLOISTER, PYTHIA, whose libraries may behave differently
in each execution `k`, and a TRACE that returns its output tuple. -/
structure Complete (env : Env V W) (le : Nat → Late V W) : Prop where
  stages : ∀ k s vs, env.rest k s vs = runLate (le k) s vs
  trace : ∀ k vs out, (le k).trace vs = .ok out → out.map Prod.fst = (outputs .trace).map Prod.fst

/-- The file is an array of numbers with these headings, names of rows and entries. -/
def Numbers (tx : Text V α) (files : List (String × Export.File α)) (file : String)
    (headings names : List String) (x : Nat → Nat → ℚ) : Prop :=
  Holds files file headings names fun i j => some (tx.num (.fin (x i j)))

/-- The file is an array of truth values with these headings, names of rows and entries. -/
def Truths (tx : Text V α) (files : List (String × Export.File α)) (file : String)
    (headings names : List String) (b : Nat → Nat → Bool) : Prop :=
  Holds files file headings names fun i j => some (tx.bool (b i j))

/-- `projection_matrix.csv` shows the matrix `a`: a column with the names of its two rows, and one column
for each feature. -/
def ShowsMatrix (tx : Text V α) (files : List (String × Export.File α)) (feats : List String)
    (a : Nat → Nat → ℚ) : Prop :=
  ∃ f : Export.Frame α, onDisk files "projection_matrix.csv" = some (.frame f) ∧
    f.length = feats.length + 1 ∧ f[0]? = some ("Row", [tx.word "Z_{1}", tx.word "Z_{2}"]) ∧
    ∀ (j : Nat) (l : String), feats[j]? = some l →
      f[j + 1]? = some (l, [tx.num (.fin (a 0 j)), tx.num (.fin (a 1 j))])

/-- The point of the plane with the coordinates `z i 0` and `z i 1`. -/
def point (z : Nat → Nat → ℚ) (i : Nat) : Fin 2 → ℚ := fun k => z i k

/-- The points `z 0`, …, `z (n - 1)`. -/
def points (z : Nat → Nat → ℚ) (n : Nat) : Set (Fin 2 → ℚ) := {p | ∃ i < n, p = point z i}

end Verif.EndToEnd
