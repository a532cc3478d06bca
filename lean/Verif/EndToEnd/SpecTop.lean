import Verif.EndToEnd.SpecGrounds
/-!
# Specification of the features that correlate most with an algorithm
-/
set_option autoImplicit false

namespace Verif.EndToEnd

open Verif (Num)

/-- No feature correlates more with algorithm `a` than feature `i`, in absolute value, as `rho` says. -/
def Top (rho : List (List Num)) (a i : Nat) : Prop :=
  ∃ v, At rho i a (.fin v) ∧ ∀ i' v', At rho i' a (.fin v') → |v'| ≤ |v|

/-- For every algorithm a feature of the Model correlates at least as much with it as any feature. -/
def KeepsTop (rho : List (List Num)) (nalgos : Nat) (sel : List Nat) : Prop :=
  ∀ a < nalgos, ∃ i ∈ sel, Top rho a i

/-- For every algorithm there is a feature that correlates at least as much with it as any feature, and a feature of
the Model in the same cluster. -/
def TopRepresented (rho : List (List Num)) (nalgos : Nat) (clust : List (List Bool)) (pre sel : List Nat) : Prop :=
  ∀ a < nalgos, ∃ f i c f' i', pre[f]? = some i ∧ Top rho a i ∧ InColumn clust f c ∧
    InColumn clust f' c ∧ pre[f']? = some i' ∧ i' ∈ sel

end Verif.EndToEnd
