import Verif.Num
/-!
# Specification of stricter correlation options
-/
set_option autoImplicit false

namespace Verif.Cloister

/-- Fewer correlations count with the second options: the largest p-value is not larger, the smallest correlation is
not smaller, and correlations of zero never count. -/
structure Stricter (pThr cThr pThr' cThr' : Num) : Prop where
  p : Num.le pThr' pThr = true
  c : Num.le cThr cThr' = true
  nonneg : Num.le 0 cThr = true

end Verif.Cloister
