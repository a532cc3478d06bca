import Verif.Sifted.Model
/-!
# Specification vocabulary for SIFTED
-/
set_option autoImplicit false

namespace Verif.Sifted

open Verif (Num)

/-- `np.argsort` returns the positions of the values, none of them NaN, in ascending order (equal
values in any order). -/
def Sorts (argsort : List Num → List Nat) : Prop :=
  ∀ l : List Num, (∀ v ∈ l, v ≠ .nan) → (argsort l).Perm (List.range l.length) ∧
    ∀ (a b : Nat) i j, a < b → (argsort l)[a]? = some i → (argsort l)[b]? = some j →
      ∀ u v, l[i]? = some u → l[j]? = some v → Num.le u v = true

/-- A matrix of finite numbers with `n` rows and `m` columns. -/
def Matrix (rho : List (List Num)) (n m : Nat) (f : Nat → Nat → ℚ) : Prop :=
  rho.length = n ∧ ∀ i < n, ∃ r, rho[i]? = some r ∧ r.length = m ∧ ∀ j < m, r[j]? = some (.fin (f i j))

/-- The number of features an output has is the number of its labels, and both are taken from the
same input positions, in increasing order. -/
structure Aligned {α : Type} (x : List α) (labels : List String) (out : Out α) : Prop where
  increasing : out.selvars.Pairwise (· < ·)
  inRange : ∀ i ∈ out.selvars, i < x.length
  columns : out.x.length = out.selvars.length
  names : out.featLabels.length = out.selvars.length
  same : ∀ j i : Nat, out.selvars[j]? = some i → out.x[j]? = x[i]? ∧ out.featLabels[j]? = labels[i]?

/-- Feature `f` of the original data belongs to cluster `c`, where `selvars` are the clustered
features and `labels` their clusters. -/
def InCluster (selvars labels : List Nat) (c f : Nat) : Prop :=
  ∃ i : Nat, selvars[i]? = some f ∧ labels[i]? = some c

/-- `c` is the first number of clusters, among 2 to `n - 1`, with the best score. -/
def BestCount (score : Nat → ℚ) (n c : Nat) : Prop :=
  2 ≤ c ∧ c < n ∧ ∀ d, 2 ≤ d → d < n → score d ≤ score c ∧ (d < c → score d < score c)

/-- The value of a fitness function that succeeds. -/
def valueOf (fitness : List Int → Except Err (Option ℚ)) (s : List Int) : ℚ :=
  match fitness s with
  | .ok (some q) => q
  | _ => 0

/-- The contract of pygad: of the candidates it compares, the search returns one with the largest
fitness. -/
def Maximises (search : (List Int → Except Err (Option ℚ)) → Except Err (List Int))
    (compared : List (List Int)) : Prop :=
  ∀ fitness, (∀ s ∈ compared, ∃ q, fitness s = .ok (some q)) →
    ∃ best ∈ compared, search fitness = .ok best ∧
      ∀ s ∈ compared, valueOf fitness s ≤ valueOf fitness best

end Verif.Sifted
