import Verif.Sifted.Lemmas
import Verif.Sifted.Spec
/-!
# C213: when the feature selection completes

The specification.
-/
set_option autoImplicit false

namespace Verif.Sifted

open Verif (Num)

/-- Libraries that do their work: k-means labels every feature and leaves no cluster empty, and the genetic
search returns a candidate with one gene per cluster if every candidate can be scored. -/
structure Delivers (lib : Lib) (k : Nat) : Prop where
  labelled : ∀ sel, (lib.kmeans sel k).length = sel.length
  filled : ∀ sel, k ≤ sel.length → ∀ c < k, c ∈ lib.kmeans sel k
  found : ∀ fit, (∀ s : List Int, s.length = k → ∃ v, fit s = .ok v) →
    ∃ best, lib.search fit = .ok best ∧ best.length = k

/-- The full claim: with two features or more the stage returns a selection. -/
def SelectionCompletes : Prop :=
  ∀ (lib : Lib) (rho : List (List Num)) (thr : Num) (k nalgos : Nat) (x labels : List String)
    (f : Nat → Nat → ℚ), Sorts lib.argsort → Delivers lib k → 0 < nalgos → 2 ≤ x.length →
    Matrix rho x.length nalgos f → ∃ out, sifted lib rho thr k nalgos x labels false = .ok out

end Verif.Sifted
