import Verif.EndToEnd.Spec
/-!
# Specification of what the Model says about the selection of features
-/
set_option autoImplicit false

namespace Verif.EndToEnd

open Verif (Num)
open Verif.Pipeline (Name)
open Verif.Runner (Dict)

variable {V W : Type}

/-- The values of column `j` of `x` and column `a` of `y` for the instances that have both, in order. -/
def paired (x y : List (List Num)) (j a : Nat) : List (Num × Num) :=
  (x.zip y).filterMap fun r => match r.1[j]?, r.2[a]? with
    | some u, some v => if u.isNan || v.isNan then none else some (u, v)
    | _, _ => none

/-- The coefficient and the p-value of these pairs; both are NaN without pairs. -/
def related (pearson : List (Num × Num) → Num × Num) (l : List (Num × Num)) : Num × Num :=
  match l with
  | [] => (.nan, .nan)
  | q :: l => pearson (q :: l)

/-- Row `i` of `rho` and `pval` tells how column `j` of `x` is correlated with each column of `y`; in `rho`, a
coefficient that is missing or not significant at the level 0.05 is 0. -/
def Correlates (pearson : List (Num × Num) → Num × Num) (x y : List (List Num)) (nalgos : Nat)
    (rho pval : List (List Num)) (i j : Nat) : Prop :=
  ∀ a < nalgos, ∃ c p : Num, related pearson (paired x y j a) = (c, p) ∧ At pval i a p ∧
    At rho i a (if c = .nan ∨ Num.lt (.fin (5 / 100)) p = true then 0 else c)

/-- The correlations in an output, and what they are about. -/
structure Reported (d : Dict Name (Val V W)) (x y rho pval : Preprocessing.Mat Num) (sel : List Nat) : Prop where
  x : d .x = some (.table x)
  y : d .y = some (.table y)
  selvars : d .selvars = some (.counts sel)
  rho : d .rho = some (.table rho)
  pval : d .pval = some (.table pval)

/-- Row `f` of the array of clusters is marked in column `c`. -/
def InColumn (clust : List (List Bool)) (f c : Nat) : Prop := At clust f c true

/-- The array of clusters is about the features `pre`, one in each row; each row is in one cluster at most; the
features `sel` are among them, one of each cluster. -/
structure Represented (clust : List (List Bool)) (k : Nat) (pre sel : List Nat) : Prop where
  increasing : pre.Pairwise (· < ·)
  rows : clust.length = pre.length
  columns : ∀ r ∈ clust, r.length = k
  once : ∀ f c c', InColumn clust f c → InColumn clust f c' → c = c'
  among : sel.Sublist pre
  number : sel.length = k
  one : ∀ c < k, ∃ f i, InColumn clust f c ∧ pre[f]? = some i ∧ i ∈ sel ∧
    ∀ f' i', InColumn clust f' c → pre[f']? = some i' → i' ∈ sel → f' = f

end Verif.EndToEnd
