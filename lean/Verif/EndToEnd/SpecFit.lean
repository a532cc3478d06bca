import Verif.EndToEnd.SpecTries
import Verif.Pilot.SpecVector
/-!
# Specification of the quality of the fit in the Model
-/
set_option autoImplicit false

namespace Verif.EndToEnd

open Verif (Num)
open Verif.Pipeline (Name)
open Verif.Runner (Dict)

variable {V W : Type}

/-- `r` is the part of the variation of `u` that `v` explains, rounded; it is missing if one of them is constant. -/
def Part (half : ℚ → ℚ) {r : Nat} (u v : Fin r → ℚ) (w : Num) : Prop :=
  (w = .nan ∧ (Pilot.Constant u ∨ Pilot.Constant v)) ∨ ∃ s, Pilot.Explains u v s ∧ w = .fin (half s)

/-- `r2` in the output has one entry for every feature and then one for every algorithm: the part of its variation
that is explained by its reconstruction from the coordinates in the output with its matrices `b` and `c`. -/
def Fits (half : ℚ → ℚ) (d : Dict Name (Val V W)) : Prop :=
  ∃ (p n q : Nat) (x : Matrix (Fin p) (Fin n) ℚ) (y : Matrix (Fin p) (Fin q) ℚ) (z : Matrix (Fin p) (Fin 2) ℚ)
    (b : Matrix (Fin n) (Fin 2) ℚ) (c : Matrix (Fin 2) (Fin q) ℚ) (r2 : List Num),
    Stores d .x x ∧ Stores d .y y ∧ Stores d .z z ∧ Stores d .b b ∧ Stores d .c c ∧
      d .r2 = some (.numbers r2) ∧ r2.length = n + q ∧
      (∀ (j : Fin n) w, r2[j.val]? = some w →
        Part half (fun i => x i j) (fun i => z i 0 * b j 0 + z i 1 * b j 1) w) ∧
      ∀ (j : Fin q) w, r2[n + j.val]? = some w →
        Part half (fun i => y i j) (fun i => z i 0 * c 0 j + z i 1 * c 1 j) w

/-- All entries of row `i` of the two tables are the same. -/
def SameEntries (x y : List (List Num)) (i : Nat) : Prop :=
  ∃ v, (∀ j u, At x i j u → u = v) ∧ ∀ j u, At y i j u → u = v

end Verif.EndToEnd
