import Verif.EndToEnd.Model
import Verif.Pipeline.WholeLemmas
import Verif.Metadata.Props
import Verif.Preprocessing.Spec
import Verif.Prelim.PropsSubset
import Verif.Prelim.Spec
/-!
# Specification of the pipeline from the metadata table to the data of the Model
-/
set_option autoImplicit false

namespace Verif.EndToEnd

open Verif (Num)
open Verif.Pipeline (Stg Name outputs defaultStages buildDefault runner)
open Verif.Metadata (Table Squeezed Begins fromDataFrame)
open Verif.Preprocessing (Lists)
open Verif.Runner (Dict Op exec runAll contents)

variable {V W : Type}

/-- The value in row `i` of the column called `name`. -/
def Cell (t : Table V) (name : String) (i : Nat) (v : V) : Prop :=
  ∃ c ∈ t.cols, c.1 = name ∧ c.2[i]? = some v

/-- A column of the kind `Q` that the user asked for: it is in the list, or there is no list, or the list
names no column of this kind. -/
def Wanted (t : Table V) (Q : String → Prop) (list : Option (List String)) (name : String) : Prop :=
  (∃ c ∈ t.cols, c.1 = name) ∧ Q name ∧
    ∀ l, list = some l → (∃ c ∈ t.cols, Q c.1 ∧ c.1 ∈ l) → name ∈ l

/-- Row `i` has a value in a wanted column of the kind `Q`. -/
def HasSome (num : V → Num) (t : Table V) (Q : String → Prop) (list : Option (List String)) (i : Nat) :
    Prop :=
  ∃ name v, Wanted t Q list name ∧ Cell t name i v ∧ num v ≠ .nan

/-- The rows of the table that stay: those with a feature value and a performance value, in order. -/
def KeptRows (lower : String → String) (num : V → Num) (env : Env V W) (t : Table V) (rows : List Nat) :
    Prop :=
  Lists rows t.nrows fun i => HasSome num t (Begins lower "feature_") env.feats i ∧
    HasSome num t (Begins lower "algo_") env.algos i

/-- A table as the library expects it: rectangular, with distinct column names (`pd.read_csv` renames
repeated ones), one instances column, at most one sources column, and not exactly one row.  The last four
stages return their output tuples. -/
structure Readable (lower : String → String) (env : Env V W) (t : Table V) (labels : List V) : Prop where
  rect : t.Rect
  distinct : (t.cols.map Prod.fst).Nodup
  several : t.nrows ≠ 1
  labels : ∃ name, (t.cols.filter fun c => lower c.1 == "instances") = [(name, labels)]
  sources : (t.cols.filter fun c => lower c.1 == "source").length ≤ 1
  tuples : ∀ k s vs out, env.rest k s vs = .ok out → out.map Prod.fst = (outputs s).map Prod.fst

/-- And no subset of the instances is asked for. -/
structure Ordinary (lower : String → String) (env : Env V W) (t : Table V) (labels : List V) : Prop
    extends Readable lower env t labels where
  noFraction : ¬ Prelim.UsesFraction env.subset
  noFile : ¬ Prelim.UsesFile env.subset
  noDensity : ¬ Prelim.UsesDensity env.subset

/-- `d` is what a successful `run_all` leaves behind, on the metadata made from the table, after any calls
of the runner's methods, with the stages added in any order. -/
def Succeeds (lower : String → String) (numeric : Squeezed V → Bool) (str : V → V) (num : V → Num)
    (env : Env V W) (t : Table V) (d : Dict Name (Val V W)) : Prop :=
  ∃ (order : List Stg) (π : Builder.SetOrder Stg) (sched : List (List Stg))
    (ops : List (Op Stg Name (Val V W))),
    order.Perm defaultStages ∧ buildDefault order π = .ok sched ∧
    contents (runAll (runner order sched (run env)) (exec (runner order sched (run env)) ops).st
      (args env num (fromDataFrame lower numeric str t))) = .ok d

/-- `b` is the best performance present in row `i` among the algorithms. -/
structure BestCell (num : V → Num) (maxPerf : Bool) (t : Table V) (algos : List String) (i : Nat)
    (b : Num) : Prop where
  reached : ∃ a ∈ algos, ∃ v, Cell t a i v ∧ num v = b
  present : b ≠ .nan
  best : ∀ a ∈ algos, ∀ v, Cell t a i v → num v ≠ .nan → Prelim.AtLeastAsGood maxPerf b (num v)

/-- Entry `j` of row `k`. -/
def At {α : Type} (m : List (List α)) (k j : Nat) (v : α) : Prop :=
  ∃ r, m[k]? = some r ∧ r[j]? = some v

end Verif.EndToEnd
