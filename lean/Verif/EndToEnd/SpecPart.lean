import Verif.EndToEnd.SpecAbsent
/-!
# Specification of builds on part of the instances
-/
set_option autoImplicit false

namespace Verif.EndToEnd

open Verif (Num)
open Verif.Pipeline (Name)
open Verif.Metadata (Meta)

variable {V W : Type}

/-- No value is missing. -/
def NothingMissing (num : V → Num) (m : Meta V) : Prop :=
  (∀ r ∈ m.features, ∀ v ∈ r, num v ≠ .nan) ∧ ∀ r ∈ m.algorithms, ∀ v ∈ r, num v ≠ .nan

/-- The options with no subset asked for. -/
def withoutSubset (env : Env V W) : Env V W :=
  { env with subset := ⟨false, false, false, false, false, false, false, ""⟩ }

/-- What is about all instances of the metadata even when a subset is asked for: the metadata itself, the
labels, and the quantities that PRELIM records of the columns. -/
def ofAllInstances : List Name :=
  [.features, .algorithms, .instance_labels, .instance_sources, .inst_labels, .instlabels, .med_val, .iq_range,
    .hi_bound, .lo_bound, .min_x, .min_y]

end Verif.EndToEnd
