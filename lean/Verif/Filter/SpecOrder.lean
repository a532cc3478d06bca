import Verif.Filter.Props
/-!
# Specification: how many instances the filter keeps
-/
set_option autoImplicit false

namespace Verif.Filter

/-- The row has `nfeats` features, `nalgos` performances and `nalgos` labels: what the matrices of
filter.py:31-33 say of every instance. -/
def Shaped (nalgos nfeats : Nat) (r : Inst) : Prop :=
  r.x.length = nfeats ∧ r.y.length = nalgos ∧ r.good.length = nalgos

/-- The number of instances which `filter_instance` (filter.py:30-96) leaves with the threshold `d`:
the number of `False` in `subset_index`. -/
noncomputable def keeps (nalgos nfeats : Nat) (ty : FilterType) (d : ℝ) (rows : List Inst) : Nat :=
  ((filterInstance (euclidTests nalgos nfeats d) ty rows).filter fun f => f.excluded = false).length

end Verif.Filter
