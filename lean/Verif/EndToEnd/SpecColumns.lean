import Verif.EndToEnd.Spec
/-!
# Specification: the same table with its columns in another order
-/
set_option autoImplicit false

namespace Verif.EndToEnd

open Verif (Num)
open Verif.Metadata (Table)
open Verif.Pipeline (Name)
open Verif.Runner (Dict)

variable {V W : Type}

/-- The two tables have the same columns, with the same cells, in some orders. -/
def SameColumns (t t' : Table V) : Prop := t'.nrows = t.nrows ∧ t'.cols.Perm t.cols

/-- The arrays have the same number of rows, and under every name the same column: column `j` of the first
is called `names[j]`, column `j'` of the second `names'[j']`. -/
def AgreeByName {α : Type} (names names' : List String) (m m' : List (List α)) : Prop :=
  m'.length = m.length ∧
    ∀ (j j' : Nat) (a : String), names[j]? = some a → names'[j']? = some a →
      ∀ (k : Nat) (v : α), At m k j v ↔ At m' k j' v

/-- What the Models of two runs have in common, the names of the algorithms and features being listed in
any orders. -/
structure SameData (d d' : Dict Name (Val V W)) : Prop where
  /-- Everything that is not about single algorithms or features is the same. -/
  same : ∀ n ∈ [Name.inst_labels, .s, .y_best, .num_good_algos, .beta], d n = d' n ∧ (d n).isSome
  /-- The same algorithms, with the same verdicts and performances. -/
  algorithms : ∃ algos algos' yb yb' y y' yr yr',
    d .algo_labels = some (.names algos) ∧ d' .algo_labels = some (.names algos') ∧ algos'.Perm algos ∧
    d .y_bin = some (.verdicts yb) ∧ d' .y_bin = some (.verdicts yb') ∧ AgreeByName algos algos' yb yb' ∧
    d .y = some (.table y) ∧ d' .y = some (.table y') ∧ AgreeByName algos algos' y.rows y'.rows ∧
    d .y_raw = some (.table yr) ∧ d' .y_raw = some (.table yr') ∧ AgreeByName algos algos' yr.rows yr'.rows
  /-- A feature that both runs select has the same values in both, processed and raw. -/
  features : ∃ feats feats' x x' xr xr' sel sel',
    d .feat_labels = some (.names feats) ∧ d' .feat_labels = some (.names feats') ∧
    d .x = some (.table x) ∧ d' .x = some (.table x') ∧ AgreeByName feats feats' x.rows x'.rows ∧
    d .x_raw = some (.table xr) ∧ d' .x_raw = some (.table xr') ∧
    d .selvars = some (.counts sel) ∧ d' .selvars = some (.counts sel') ∧
    ∀ (j j' : Nat) (a : String), feats[j]? = some a → feats'[j']? = some a →
      ∃ c c' : Nat, sel[j]? = some c ∧ sel'[j']? = some c' ∧
        ∀ (k : Nat) (v : Num), At xr.rows k c v ↔ At xr'.rows k c' v

/-- The two Models name the same best algorithm for every instance. -/
def SameBest (d d' : Dict Name (Val V W)) : Prop :=
  ∃ algos algos' ps ps', d .algo_labels = some (.names algos) ∧ d' .algo_labels = some (.names algos') ∧
    d .p = some (.counts ps) ∧ d' .p = some (.counts ps') ∧ ps'.length = ps.length ∧
    ∀ k p p' : Nat, ps[k]? = some (p + 1) → ps'[k]? = some (p' + 1) → algos[p]? = algos'[p']?

/-- No two algorithms share the best performance in a row of the table, the best performance is a number
other than zero. -/
def ClearBest (num : V → Num) (maxPerf : Bool) (t : Table V) (algos : List String) (i : Nat) : Prop :=
  ∃ b : ℚ, b ≠ 0 ∧ BestCell num maxPerf t algos i (.fin b) ∧
    ∀ a a' v v', a ∈ algos → a' ∈ algos → Cell t a i v → Cell t a' i v' → num v = .fin b → num v' = .fin b →
      a = a'

end Verif.EndToEnd
