import Verif.Runner.Model
/-!
# Model of the calls of `InstanceSpace` (instance_space.py)

The metadata and the options do not change during the life of the object (they are read only
properties, instance_space.py:187-195), so the initial inputs are one fixed dictionary `args`.
-/
set_option autoImplicit false

namespace Verif.InstanceSpace

open Verif.Runner

variable {S N V E : Type} [DecidableEq S] [DecidableEq N]

/-- The fields `_runner` (with the generators its user holds), `_final_output` (a reference to a
dictionary of the runner) and `_model`, instance_space.py:125-132.  A Model is represented by the
values it reads. -/
structure Space (S N V E : Type) where
  world : World S N V E
  final : Option Nat
  model : Option (List V)

/-- Exceptions: `StageRunningError` of instance_space.py:212, `KeyError` of
`Model.from_stage_runner_output`, or what running the stages raised. -/
inductive SpaceError (N E : Type)
  | notBuilt
  | missingKey (n : N)
  | run (e : RunError N E)
  deriving DecidableEq, Repr

/-- `InstanceSpace.__init__`, instance_space.py:159-185. -/
def Space.init : Space S N V E := ⟨⟨.init, []⟩, none, none⟩

/-- The property `model`, instance_space.py:198-219; `keys` are the keys the Model reads. -/
def readModel (keys : List N) (sp : Space S N V E) :
    Except (SpaceError N E) (List V) × Space S N V E :=
  match sp.model with
  | some m => (.ok m, sp)
  | none =>
    match sp.final with
    | none => (.error .notBuilt, sp)
    | some ref =>
      match collect (sp.world.st.heap ref) keys with
      | .error n => (.error (.missingKey n), sp)
      | .ok m => (.ok m, { sp with model := some m })

/-- `build`, instance_space.py:221-240. -/
def build (P : Pipeline S N V E) (keys : List N) (args : Dict N V) (sp : Space S N V E) :
    Except (SpaceError N E) (List V) × Space S N V E :=
  let r := runAll P sp.world.st args
  match r.1 with
  | .error e => (.error (.run e), { sp with world := { sp.world with st := r.2 } })
  | .ok ref => readModel keys
      { sp with world := { sp.world with st := r.2 }, final := some ref }

/-- The calls of a user: `build`, reading `model`, `run_stage` (instance_space.py:259-283),
`run_until_stage` (285-311, the keyword arguments are ignored), making a generator with `run_iter`
(242-257) and `next` on it. -/
inductive Call (S N V : Type)
  | build
  | model
  | runStage (s : S) (kw : List (N × V))
  | runUntil (s : S)
  | newIter
  | next (gen : Nat)

/-- One call, exceptions are caught by the user; instance_space.py:198-311. -/
def stepCall (P : Pipeline S N V E) (keys : List N) (args : Dict N V) (sp : Space S N V E) :
    Call S N V → Space S N V E
  | .build => (build P keys args sp).2
  | .model => (readModel keys sp).2
  | .runStage s kw => { sp with world := step P sp.world (.runStage s kw) }
  | .runUntil s => { sp with world := step P sp.world (.runUntil s args) }
  | .newIter => { sp with world := step P sp.world (.newIter args) }
  | .next k => { sp with world := step P sp.world (.next k) }

/-- A history of calls (instance_space.py:187-312) on a new object (134-185). -/
def history (P : Pipeline S N V E) (keys : List N) (args : Dict N V) (calls : List (Call S N V)) :
    Space S N V E :=
  calls.foldl (stepCall P keys args) .init

end Verif.InstanceSpace
