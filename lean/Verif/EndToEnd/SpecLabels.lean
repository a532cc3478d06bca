import Verif.EndToEnd.SpecTrace
/-!
# Specification of tables that differ in labels and sources only
-/
set_option autoImplicit false

namespace Verif.EndToEnd

open Verif (Num)
open Verif.Pipeline (Name)
open Verif.Metadata (Table Begins)
open Verif.Runner (Dict RunError)

variable {V W : Type}

open Classical in
/-- The columns whose names begin with `p`, in the order of the table, with their cells as numbers. -/
noncomputable def numbersOf (lower : String → String) (num : V → Num) (p : String) (t : Table V) :
    List (String × List Num) :=
  (t.cols.filter fun c => decide (Begins lower p c.1)).map fun c => (c.1, c.2.map num)

/-- The table has no sources, or one column of them. -/
def SourcesAre (lower : String → String) (t : Table V) : Option (List V) → Prop
  | none => (t.cols.filter fun c => lower c.1 == "source") = []
  | some l => ∃ name, (t.cols.filter fun c => lower c.1 == "source") = [(name, l)]

/-- Two tables with the same features and the same performances, each with its own labels and sources;
columns of other kinds and the places of the columns among the others may differ. -/
structure Twins (lower : String → String) (num : V → Num) (t t' : Table V) (labels labels' : List V)
    (sources sources' : Option (List V)) : Prop where
  rows : t.nrows = t'.nrows
  several : t.nrows ≠ 1
  rect : t.Rect
  rect' : t'.Rect
  features : numbersOf lower num "feature_" t = numbersOf lower num "feature_" t'
  algorithms : numbersOf lower num "algo_" t = numbersOf lower num "algo_" t'
  labelled : ∃ name, (t.cols.filter fun c => lower c.1 == "instances") = [(name, labels)]
  labelled' : ∃ name, (t'.cols.filter fun c => lower c.1 == "instances") = [(name, labels')]
  sourced : SourcesAre lower t sources
  sourced' : SourcesAre lower t' sources'
  both : sources.isSome = sources'.isSome

/-- `l` and `l'` are taken from the same places of `L` and `L'`. -/
def SamePlaces (L L' l l' : List V) : Prop :=
  ∃ idx : List Nat, l.map some = idx.map (L[·]?) ∧ l'.map some = idx.map (L'[·]?)

/-- Two values are the same, except that labels and sources are those of the same rows of their own
tables. -/
def Alike (L L' : List V) (S S' : Option (List V)) : Val V W → Val V W → Prop
  | .labels l, .labels l' => SamePlaces L L' l l'
  | .sources none, .sources none => True
  | .sources (some l), .sources (some l') => ∃ o o', S = some o ∧ S' = some o' ∧ SamePlaces o o' l l'
  | v, v' => v = v'

/-- The same exception, or the same output up to labels and sources. -/
def AlikeOutcomes (L L' : List V) (S S' : Option (List V)) :
    Except (RunError Name Err) (Dict Name (Val V W)) → Except (RunError Name Err) (Dict Name (Val V W)) → Prop
  | .error e, .error e' => e = e'
  | .ok d, .ok d' => ∀ n, (d n = none ∧ d' n = none) ∨ ∃ v v', d n = some v ∧ d' n = some v' ∧ Alike L L' S S' v v'
  | _, _ => False

end Verif.EndToEnd
