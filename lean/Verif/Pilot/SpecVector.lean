import Verif.Pilot.Spec
import Mathlib.Order.Bounds.Defs
/-!
# Specification of PILOT's solution vector and of the explained variation (C135, C79)
-/
set_option autoImplicit false

namespace Verif.Pilot

variable {K : Type} [Field K] [LinearOrder K] {p n q : Nat}

/-- The vector lists the coefficients `a` of the first axis, those of the second, then for every
feature its two coefficients in `b` and for every algorithm its two coefficients in `c`. -/
structure Encodes (v : Fin (2 * (n + q) + 2 * n) → K) (a : Matrix (Fin 2) (Fin n) K)
    (b : Matrix (Fin n) (Fin 2) K) (c : Matrix (Fin 2) (Fin q) K) : Prop where
  first : ∀ (i : Fin _) (j : Fin n), i.val = j.val → v i = a 0 j
  second : ∀ (i : Fin _) (j : Fin n), i.val = n + j.val → v i = a 1 j
  features : ∀ (i : Fin _) (j : Fin n) (k : Fin 2), i.val = 2 * n + 2 * j.val + k.val → v i = b j k
  algorithms : ∀ (i : Fin _) (j : Fin q) (k : Fin 2),
    i.val = 2 * n + 2 * n + 2 * j.val + k.val → v i = c k j

/-- `u` is constant. -/
def Constant {r : Nat} (u : Fin r → K) : Prop := ∀ i j, u i = u j

/-- `s` is the part of the variation of `u` that a straight line in `v` explains: with the best
constant the sum of the squared errors is `t`, with the best line `(1 - s) * t`. -/
def Explains {r : Nat} (u v : Fin r → K) (s : K) : Prop :=
  ∃ t e : K, 0 < t ∧ s = 1 - e / t ∧
    IsLeast {w | ∃ a : K, w = ∑ i, (u i - a) ^ 2} t ∧
    IsLeast {w | ∃ a b : K, w = ∑ i, (u i - (a + b * v i)) ^ 2} e

end Verif.Pilot
