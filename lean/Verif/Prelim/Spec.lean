import Verif.Prelim.Model
/-!
# Specification of the performance part of PRELIM
-/
set_option autoImplicit false

namespace Verif.Prelim

open Verif (Num)

/-- `a` is at least as good as `b`: not smaller when maximising, not larger when minimising. -/
def AtLeastAsGood (maxPerf : Bool) (a b : Num) : Prop :=
  if maxPerf then b.le a = true else a.le b = true

/-- `b` is the best performance that is present in the row. -/
structure IsBest (maxPerf : Bool) (row : List Num) (b : Num) : Prop where
  mem : b ∈ row
  present : b ≠ .nan
  best : ∀ c ∈ row, c ≠ .nan → AtLeastAsGood maxPerf b c

/-- The value that missing performances lose to or tie with: `-inf` when maximising. -/
def worst (maxPerf : Bool) : Num := if maxPerf then .ninf else .pinf

/-- Algorithm `j` is marked good in the output. -/
def MarkedGood (out : Row) (j : Nat) : Prop := out.yBin[j]? = some true

end Verif.Prelim
