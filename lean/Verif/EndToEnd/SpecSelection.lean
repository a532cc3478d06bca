import Verif.EndToEnd.CleanLemmas
import Verif.EndToEnd.Lemmas3
import Verif.Sifted.Spec
/-!
# Specification of the builds that stop in SIFTED (C213)
-/
set_option autoImplicit false

namespace Verif.EndToEnd

open Verif (Num)
open Verif.Metadata (Table)
open Verif.Preprocessing (Mat)

variable {V W : Type}

/-- `x` and `y` are the features and performances that PRELIM hands to SIFTED: what it makes of the table.
Performances may be missing; no algorithm has exactly one. -/
structure PrelimTables (num : V → Num) (env : Env V W) (t : Table V) (feats algos : List String)
    (x y : Mat Num) : Prop where
  xCols : x.ncols = feats.length
  yCols : y.ncols = algos.length
  xRows : x.rows.length = t.nrows
  yRows : y.rows.length = t.nrows
  xFin : ∀ r ∈ x.rows, FinCol x.ncols r
  yScores : ∀ c ∈ Prelim.columns y.ncols y.rows, c.length = t.nrows ∧ (∀ v ∈ c, v = .nan ∨ ∃ q, v = .fin q) ∧
    c.countP (fun v => !v.isNan) ≠ 1
  made : ∃ X Y ys, Located num t (List.range t.nrows) feats X ∧ Located num t (List.range t.nrows) algos Y ∧
    Prelim.outY env.prelim env.tr algos.length Y = some ys ∧
    x.rows = rowsOf t.nrows (Prelim.outX env.prelim env.junk env.tr (Prelim.columns feats.length X)) ∧
    y.rows = rowsOf t.nrows ys

/-- The selection of features is stuck: one feature or none passes the first step; or more than three and more
than the wanted `k` clusters pass, and `k` is not an admissible number of clusters or the best number of
clusters is neither `k` nor smaller than the number of passing features minus two. -/
def Stuck (lib : Sifted.Lib) (k : Nat) (passing : List Nat) : Prop :=
  passing.length ≤ 1 ∨ (3 < passing.length ∧ k < passing.length ∧
    (k < 2 ∨ ∃ c, Sifted.BestCount (lib.silhouette passing) passing.length c ∧ c ≠ k ∧
      passing.length ≤ c + 2))

end Verif.EndToEnd
