import Verif.EndToEnd.SpecRecompute
/-!
# Specification of the way from the raw performances to the processed ones
-/
set_option autoImplicit false

namespace Verif.EndToEnd

open Verif (Num)
open Verif.Pipeline (Name)
open Verif.Runner (Dict)

variable {V W : Type}

/-- What is needed to process the performances of one algorithm. -/
structure Gauge where
  min : Num
  lambda : Num
  mu : Num
  sigma : Num

/-- A performance `v` of an instance whose best performance is `best`.  If `norm` is set, it is measured from the
smallest performance, which becomes the smallest step of the numbers near 1, raised to the power `lambda` in the
sense of Box and Cox, and standardised.  Otherwise it is left alone if `abs` is set, and else replaced by the relative
distance from the best; `max` tells whether large performances are good. -/
def Gauge.place (norm abs max : Bool) (power : Num → Num → Num) (g : Gauge) (best v : Num) : Num :=
  if norm then (power g.lambda (v - g.min + .fin (1 / 2 ^ 52)) - g.mu) / g.sigma
  else if abs then v
  else if max then 1 - v / best else 1 - best / v

/-- The output has these quantities for algorithm `j`; the smallest performance is the same for all. -/
structure Gauged (d : Dict Name (Val V W)) (j : Nat) (g : Gauge) : Prop where
  min : d .min_y = some (.numbers [g.min])
  lambda : Noted d .lambda_y j g.lambda
  mu : Noted d .mu_y j g.mu
  sigma : Noted d .sigma_y j g.sigma

end Verif.EndToEnd
