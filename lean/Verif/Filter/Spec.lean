import Verif.Filter.Model
/-!
# Specification of the instance filter
-/
set_option autoImplicit false

namespace Verif.Filter

variable {R : Type}

/-- The documented condition under which a kept instance `a` makes a later instance `b`
superfluous: close in feature space, and for the other types also close in performance, all
algorithms good on both, or both conditions. -/
def Covers (T : Tests R) : FilterType → R → R → Prop
  | .ftr, a, b => T.near a b = true
  | .ftrAP, a, b => T.near a b = true ∧ T.close a b = true
  | .ftrGood, a, b => T.near a b = true ∧ T.bothGood a b = true
  | .ftrAPGood, a, b => T.near a b = true ∧ T.bothGood a b = true ∧ T.close a b = true

/-- The documented names of the types: features only; features and performances; features and
goodness; all three. -/
inductive Names : String → FilterType → Prop
  | ftr : Names "Ftr" .ftr
  | ftrAP : Names "Ftr&AP" .ftrAP
  | ftrGood : Names "Ftr&Good" .ftrGood
  | ftrAPGood : Names "Ftr&AP&Good" .ftrAPGood

/-- Instance `i` has row `r` and is kept / is excluded. -/
def Kept (rows : List R) (flags : List Flags) (i : Nat) (r : R) : Prop :=
  rows[i]? = some r ∧ ∃ f, flags[i]? = some f ∧ f.excluded = false

end Verif.Filter
