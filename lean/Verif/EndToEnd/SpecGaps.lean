import Verif.EndToEnd.SpecRescore
import Verif.EndToEnd.SpecTries
/-!
# Specification of a projection with missing performances
-/
set_option autoImplicit false

namespace Verif.EndToEnd

open Verif (Num)
open Verif.Pipeline (Name)
open Verif.Runner (Dict)

variable {V W : Type}

/-- The arithmetic mean. -/
def average (l : List ℚ) : ℚ := l.sum / l.length

/-- The squared differences between the values of one instance and their reconstructions from its coordinates `z`:
one for each feature, and one for each performance that is a number. -/
def leftOver {n q : Nat} (x : Fin n → ℚ) (y : Fin q → Num) (z : Fin 2 → ℚ) (b : Matrix (Fin n) (Fin 2) ℚ)
    (c : Matrix (Fin 2) (Fin q) ℚ) : List ℚ :=
  ((List.finRange n).map fun j => (x j - (z 0 * b j 0 + z 1 * b j 1)) ^ 2) ++
    (List.finRange q).filterMap fun k => match y k with
      | .fin v => some ((v - (z 0 * c 0 k + z 1 * c 1 k)) ^ 2)
      | _ => none

/-- How badly the matrices fit the values present: the mean over the instances of the mean of the squared differences
of the instance. -/
def misfit {p n q : Nat} (x : Matrix (Fin p) (Fin n) ℚ) (y : Fin p → Fin q → Num) (a : Matrix (Fin 2) (Fin n) ℚ)
    (b : Matrix (Fin n) (Fin 2) ℚ) (c : Matrix (Fin 2) (Fin q) ℚ) : ℚ :=
  average ((List.finRange p).map fun i => average (leftOver (x i) (y i) (fun k => ∑ j, x i j * a k j) b c))

/-- The array `n` of the output has these entries, some of which may be missing. -/
def StoresSome {p q : Nat} (d : Dict Name (Val V W)) (n : Name) (m : Fin p → Fin q → Num) : Prop :=
  ∃ t, d n = some (.table t) ∧ t.ncols = q ∧ t.rows.length = p ∧ ∀ (i : Fin p) (j : Fin q), At t.rows i j (m i j)

/-- Column `i` of an array holds the three matrices, each entry after `f`: first the rows of `a`, then the rows of
`b`, then the columns of `c`. -/
structure Column {n q : Nat} (t : List (List Num)) (i : Nat) (f : ℚ → ℚ) (a : Matrix (Fin 2) (Fin n) ℚ)
    (b : Matrix (Fin n) (Fin 2) ℚ) (c : Matrix (Fin 2) (Fin q) ℚ) : Prop where
  projection : ∀ (k : Fin 2) (j : Fin n), At t (k * n + j) i (.fin (f (a k j)))
  features : ∀ (j : Fin n) (k : Fin 2), At t (2 * n + (2 * j + k)) i (.fin (f (b j k)))
  performances : ∀ (j : Fin q) (k : Fin 2), At t (2 * n + 2 * n + (2 * j + k)) i (.fin (f (c k j)))

/-- The optimiser returns a point, and the value there is no more than at the start. -/
def Descends {p n q : Nat} (lib : Pilot.Lib ℚ p n q) : Prop :=
  ∀ f v, (lib.bfgs f v).2 = f (lib.bfgs f v).1 ∧ (lib.bfgs f v).2 ≤ f v

/-- Try `i` of the projection fits the values present in the Model: the recorded value is the misfit of the matrices
that were found, the matrices themselves are recorded after rounding, and they fit no worse than the matrices
the try started from. -/
def Fitted (d : Dict Name (Val V W)) (round : ℚ → ℚ) (i : Nat) : Prop :=
  ∃ (p n q : Nat) (x : Matrix (Fin p) (Fin n) ℚ) (y : Fin p → Fin q → Num) (a a₀ : Matrix (Fin 2) (Fin n) ℚ)
    (b b₀ : Matrix (Fin n) (Fin 2) ℚ) (c c₀ : Matrix (Fin 2) (Fin q) ℚ) (alpha x0 : Preprocessing.Mat Num),
    Stores d .x x ∧ StoresSome d .y y ∧ d .alpha = some (.table alpha) ∧ d .X0 = some (.table x0) ∧
      Column alpha.rows i round a b c ∧ Column x0.rows i id a₀ b₀ c₀ ∧
      Noted d .eoptim i (.fin (misfit x y a b c)) ∧ misfit x y a b c ≤ misfit x y a₀ b₀ c₀

/-- Wherever the raw performances in the Model have a number, the processed ones that are projected have one. -/
def AllUsed (d : Dict Name (Val V W)) : Prop :=
  ∀ raw y : Preprocessing.Mat Num, d .y_raw = some (.table raw) → d .y = some (.table y) →
    ∀ (k j : Nat) (q : ℚ), At raw.rows k j (.fin q) → ∃ v, At y.rows k j (.fin v)

end Verif.EndToEnd
