import Verif.EndToEnd.Spec
import Verif.Prelim.SpecMeta
/-!
# Specification: the same table with its rows in another order
-/
set_option autoImplicit false

namespace Verif.EndToEnd

open Verif (Num)
open Verif.Metadata (Table)
open Verif.Preprocessing (pick)
open Verif.Pipeline (Name)

variable {V W : Type}

/-- The table with its rows listed in the order `σ`: row `k` is the former row `σ[k]`. -/
def reordered (σ : List Nat) (t : Table V) : Table V := ⟨t.nrows, t.cols.map fun c => (c.1, pick c.2 σ)⟩

/-- A value with one entry (or row) per instance, for `n` instances. -/
def PerInstance (n : Nat) : Val V W → Prop
  | .labels l => l.length = n
  | .sources s => ∀ l, s = some l → l.length = n
  | .table m => m.rows.length = n
  | .verdicts l => l.length = n
  | .numbers l => l.length = n
  | .counts l => l.length = n
  | .flags l => l.length = n
  | _ => False

/-- Such a value with the instances listed in the order `τ`. -/
def inOrder (τ : List Nat) : Val V W → Val V W
  | .labels l => .labels (pick l τ)
  | .sources s => .sources (s.map fun l => pick l τ)
  | .table m => .table ⟨m.ncols, pick m.rows τ⟩
  | .verdicts l => .verdicts (pick l τ)
  | .numbers l => .numbers (pick l τ)
  | .counts l => .counts (pick l τ)
  | .flags l => .flags (pick l τ)
  | v => v

/-- Both runs have the value, for `n` instances, and the second run has them in the order `τ`. -/
def SameInOrder (τ : List Nat) (n : Nat) (v v' : Option (Val V W)) : Prop :=
  ∃ w, v = some w ∧ PerInstance n w ∧ v' = some (inOrder τ w)

/-- The data of the Model with one entry per instance, apart from the selected features `x`. -/
def perInstance : List Name :=
  [.inst_labels, .s, .y, .x_raw, .y_raw, .y_bin, .y_best, .p, .num_good_algos, .beta]

end Verif.EndToEnd
