import Verif.Pipeline.Tables
import Verif.Runner.PropsBuilt
/-!
# The default pipeline

The seven shipped stages, given to a `StageBuilder` and run by its runner, and the `Model` made
from the output dictionary.
-/
set_option autoImplicit false

namespace Verif.Pipeline

open Verif.Builder Verif.Runner

/-- The default value of the parameter `stages` of `InstanceSpace.__init__`,
instance_space.py:138-146. -/
def defaultStages : List Stg :=
  [.preprocessing, .prelim, .sifted, .pilot, .pythia, .cloister, .trace]

/-- `stage_builder.add_stage(stage)`, instance_space.py:169-170 with stage_builder.py:96-103: the
inputs and outputs are read off the stage class. -/
def addCall (s : Stg) : Call Stg (Name × Ty) := ⟨s, inputs s, outputs s⟩

/-- None of the annotations of the seven stages is a `RunBefore` or `RunAfter`; see the tables,
stages/preprocessing.py:33-94 and the other stage files. -/
def noRestrictions : Name × Ty → Kind Stg := fun _ => .plain

/-- The builder after adding the stages in the given order, instance_space.py:167-170. -/
def builderOf (order : List Stg) : Builder Stg (Name × Ty) :=
  runCalls cpython noRestrictions (order.map addCall) Builder.empty

/-- `self._runner = stage_builder.build(annotations)`, instance_space.py:172-183 without
additional inputs; `annotations` is a set object. -/
def buildDefault (order : List Stg) (π : SetOrder Stg) : Except BuildError (List (List Stg)) :=
  (build cpython noRestrictions (builderOf order) π (.setObject initial)).1

/-- The lookups `stage_runner_output["..."]` made by `Model.from_stage_runner_output`,
model.py:48-78 and data/model.py:56-70 etc.  The model keeps the values read, in the order of the
lookups; a missing key is a `KeyError`. -/
def modelFrom {V : Type} (d : Dict Name V) : Except Name (List V) := collect d modelKeys

end Verif.Pipeline
