import Verif.EndToEnd.SpecCompletes
/-!
# Specification of the tables with missing performances (C216)
-/
set_option autoImplicit false

namespace Verif.EndToEnd

open Verif (Num)
open Verif.Metadata (Table Begins)

variable {V : Type}

/-- A table in which performances may be missing: as `Clean`, but a performance is a finite number or missing, on
each instance there is one, and the two different numbers of each algorithm are among those that are there. -/
structure Patchy (lower : String → String) (num : V → Num) (t : Table V) : Prop where
  rows : 3 ≤ t.nrows
  numbers : ∀ c ∈ t.cols, Begins lower "feature_" c.1 → ∀ v ∈ c.2, ∃ q, num v = .fin q
  scores : ∀ c ∈ t.cols, Begins lower "algo_" c.1 → ∀ v ∈ c.2, num v = .nan ∨ ∃ q, num v = .fin q
  scored : ∀ i < t.nrows, ∃ a v q, Begins lower "algo_" a ∧ Cell t a i v ∧ num v = .fin q
  features : ∃ c ∈ t.cols, ∃ c' ∈ t.cols, c.1 ≠ c'.1 ∧ Begins lower "feature_" c.1 ∧
    Begins lower "feature_" c'.1
  algorithms : ∃ c ∈ t.cols, ∃ c' ∈ t.cols, c.1 ≠ c'.1 ∧ Begins lower "algo_" c.1 ∧
    Begins lower "algo_" c'.1
  spread : ∀ c ∈ t.cols, Begins lower "feature_" c.1 → ∀ q : Num, 2 * (c.2.map num).count q ≤ t.nrows
  varied : ∀ c ∈ t.cols, Begins lower "algo_" c.1 → ∃ v ∈ c.2, ∃ w ∈ c.2, ∃ p q : ℚ,
    num v = .fin p ∧ num w = .fin q ∧ p ≠ q ∧ p ≠ 0 ∧ q ≠ 0

end Verif.EndToEnd
