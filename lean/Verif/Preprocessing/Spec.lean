import Verif.Preprocessing.Model
/-!
# Specification of preprocessing
-/
set_option autoImplicit false

namespace Verif.Preprocessing

variable {V L I S : Type}

/-- The elements of `l` at the given positions, in the order of the positions. -/
def pick {α : Type} (l : List α) (is : List Nat) : List α := is.filterMap fun i => l[i]?

/-- The matrix is rectangular. -/
def Mat.Rect (x : Mat V) : Prop := ∀ row ∈ x.rows, row.length = x.ncols

/-- The arrays fit together: rectangular, one label per feature, one label, source and
performance row per instance. -/
structure Data.Fits (d : Data V L I S) : Prop where
  rectX : d.x.Rect
  rectY : d.y.Rect
  feat : d.feat.length = d.x.ncols
  y : d.y.rows.length = d.x.rows.length
  inst : d.inst.length = d.x.rows.length
  s : ∀ s, d.s = some s → s.length = d.x.rows.length

/-- Row `i` of the matrix has a value that is not missing. -/
def HasValue (nan : V → Bool) (x : Mat V) (i : Nat) : Prop :=
  ∃ (row : List V) (v : V), x.rows[i]? = some row ∧ v ∈ row ∧ nan v = false

/-- The value in row `i` and column `j` is missing. -/
def Missing (nan : V → Bool) (x : Mat V) (i j : Nat) : Prop :=
  ∃ (row : List V) (v : V), x.rows[i]? = some row ∧ row[j]? = some v ∧ nan v = true

/-- `is` lists, in increasing order, exactly the numbers below `n` that satisfy `P`. -/
structure Lists (is : List Nat) (n : Nat) (P : Nat → Prop) : Prop where
  increasing : is.Pairwise (· < ·)
  exact : ∀ i, i ∈ is ↔ i < n ∧ P i

/-- Column `j` is chosen by the options: its label is in the list `wanted`, or there is no list, or
the list names no column at all. -/
def Chosen (labels : List L) (wanted : Option (List L)) (j : Nat) : Prop :=
  ∀ w, wanted = some w → (∃ l ∈ labels, l ∈ w) → ∃ l ∈ w, labels[j]? = some l

end Verif.Preprocessing
