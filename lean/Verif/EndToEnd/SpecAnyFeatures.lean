import Verif.EndToEnd.AnyFeatures
import Verif.EndToEnd.SpecLate
/-!
# Specification of builds on any features
-/
set_option autoImplicit false

namespace Verif.EndToEnd

open Verif (Num)
open Verif.Pipeline (outputs)

variable {V W : Type}

/-- The last four stages of the pipeline are PILOT, CLOISTER and PYTHIA on any features, and a TRACE that returns
its output tuple. -/
structure AnyFeatures (env : Env V W) (le : Nat → Late V W) (bl : Nat → Beyond V W) : Prop where
  stages : ∀ k s vs, env.rest k s vs = fullLate (le k) (bl k) s vs
  trace : ∀ k vs out, (le k).trace vs = .ok out → out.map Prod.fst = (outputs .trace).map Prod.fst

/-- The same pipeline with PILOT, CLOISTER and PYTHIA on finite features. -/
def Env.finiteFeatures (env : Env V W) (le : Nat → Late V W) : Env V W :=
  { env with rest := fun k s vs => runLate (le k) s vs }

/-- Every entry of the array is a number. -/
def AllNumbers (m : Preprocessing.Mat Num) : Prop := ∀ i j v, At m.rows i j v → ∃ q, v = .fin q

end Verif.EndToEnd
