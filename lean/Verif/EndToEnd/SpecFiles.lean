import Verif.EndToEnd.Spec
import Verif.EndToEnd.Files
/-!
# Specification: what the CSV files say about the rows of the metadata table
-/
set_option autoImplicit false

namespace Verif.EndToEnd

open Verif.Export (onDisk)

/-- The file has the given column headings and one line for each of the listed rows of the table, in
order; the line of row `i` begins with the name of row `i`, and its entry `c` under heading `a` is
right, `P i a c`. -/
def FileShows {α : Type} (files : List (String × Export.File α)) (file : String) (names : List String)
    (headings : List String) (rows : List Nat) (P : Nat → String → α → Prop) : Prop :=
  ∃ tb : Export.Table α, onDisk files file = some (.array tb) ∧ tb.columns = headings ∧
    tb.rows.length = rows.length ∧
    ∀ k i : Nat, rows[k]? = some i → ∃ name cells, tb.rows[k]? = some (name, cells) ∧
      names[i]? = some name ∧
      ∀ (j : Nat) (a : String), headings[j]? = some a → ∃ c, cells[j]? = some c ∧ P i a c

/-- `files` are what a successful `save_to_csv` of the Model made from the output `d` leaves behind; what
the export reads of the last four stages is arbitrary. -/
def Saved {V W α : Type} (tx : Text V α) (d : Runner.Dict Pipeline.Name (Val V W))
    (files : List (String × Export.File α)) : Prop :=
  ∃ (junk : α × α) (rest e : Export.Export α) (m : Pipeline.ModelObj (Val V W) Unit),
    Pipeline.modelOf d () = .ok m ∧ exportOf tx rest m = some e ∧
    (Export.saveCsv junk true e).error = none ∧ (Export.saveCsv junk true e).files = files

/-- The same, where the results of PILOT, CLOISTER and PYTHIA are exported too; only what the export reads
of TRACE's results is arbitrary. -/
def SavedLate {V W α : Type} (tx : Text V α) (d : Runner.Dict Pipeline.Name (Val V W))
    (files : List (String × Export.File α)) : Prop :=
  ∃ (junk : α × α) (rest late e : Export.Export α) (m : Pipeline.ModelObj (Val V W) Unit),
    Pipeline.modelOf d () = .ok m ∧ lateOf tx rest m = some late ∧ exportOf tx late m = some e ∧
    (Export.saveCsv junk true e).error = none ∧ (Export.saveCsv junk true e).files = files

end Verif.EndToEnd
