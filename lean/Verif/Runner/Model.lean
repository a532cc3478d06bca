/-!
# Model of `instancespace/stage_runner.py`

Python dictionaries are mutable objects and the runner keeps several references to the same
dictionary, so the state has a heap of dictionaries and the fields hold addresses.  Values
stored in dictionaries are opaque here (their mutability is the subject of `Verif.Isolation`).
Printing and the unused `run_many_stages_parallel` (which always raises) are not modelled.
-/
set_option autoImplicit false

namespace Verif.Runner

variable {S N V E : Type}

/-- A Python `dict[str, Any]`; the order of keys is not modelled.  stage_runner.py:40, 66. -/
abbrev Dict (N V : Type) := N → Option V

/-- `d[k] = v`, stage_runner.py:142, 158. -/
def Dict.put [DecidableEq N] (d : Dict N V) (k : N) (v : V) : Dict N V :=
  fun n => if n = k then some v else d n

/-- A loop of assignments `d[k] = v`, stage_runner.py:141-142 and 157-158. -/
def Dict.putAll [DecidableEq N] (d : Dict N V) : List (N × V) → Dict N V
  | [] => d
  | (k, v) :: rest => (d.put k v).putAll rest

/-- Exceptions that leave the runner.  `unknownStage` is the `KeyError` of
stage_runner.py:128, `stageRunning` the `StageRunningError` of 129-133, `missingArgument` the
`KeyError` of 150, `stage e` an exception raised by the stage itself (155), `indexError` a
list index out of range (160, 261, 271; proved unreachable). -/
inductive RunError (N E : Type)
  | unknownStage
  | stageRunning
  | missingArgument (n : N)
  | stage (e : E)
  | indexError
  deriving DecidableEq, Repr

/-- A call of `stage._run`: the stage, the inputs it received and what came out.
stage_runner.py:155. -/
structure Event (S N V E : Type) where
  stage : S
  inputs : List V
  result : Except E (List (N × V))

/-- What a runner is made from, stage_runner.py:57-63: the schedule, for each stage the field
names of its input class (`stage._inputs()._fields`, 148) and its behaviour.  `run k s vs` is
the outcome of `s._run` on the inputs `vs` when it is the `k`-th stage execution on this
runner, so stages may be random or stateful.  The result is `outputs._asdict().items()`
(157). -/
structure Pipeline (S N V E : Type) where
  order : List (List S)
  fields : S → List N
  run : Nat → S → List V → Except E (List (N × V))

/-- The fields of a `StageRunner`, stage_runner.py:34-50, with the heap of dictionaries
(`next` is the first unused address) and the list of stage executions made so far, oldest
first. -/
structure State (S N V E : Type) where
  heap : Nat → Dict N V
  next : Nat
  data : List Nat
  cur : Nat
  avail : Nat
  ran : S → Bool
  calls : List (Event S N V E)

/-- `StageRunner.__init__`, stage_runner.py:70-77.  Address 0 is the dict in
`_schedule_output_data`, address 1 is `_available_arguments`. -/
def State.init : State S N V E where
  heap := fun _ _ => none
  next := 2
  data := [0]
  cur := 0
  avail := 1
  ran := fun _ => false
  calls := []

/-- The dictionary `_available_arguments` currently refers to, stage_runner.py:75. -/
def State.args (st : State S N V E) : Dict N V := st.heap st.avail

/-- `_stage_to_schedule_index`, stage_runner.py:79-81: later entries overwrite earlier ones. -/
def indexFrom [DecidableEq S] (s : S) : Nat → List (List S) → Option Nat
  | _, [] => none
  | i, e :: rest =>
    match indexFrom s (i + 1) rest with
    | some j => some j
    | none => if s ∈ e then some i else none

/-- `self._stage_to_schedule_index[stage]`, stage_runner.py:128. -/
def indexOf [DecidableEq S] (order : List (List S)) (s : S) : Option Nat := indexFrom s 0 order

/-- `_rollback_to_schedule_index`, stage_runner.py:256-267. `none` is the `IndexError` of
line 261. -/
def rollback [DecidableEq S] (P : Pipeline S N V E) (st : State S N V E) (i : Nat) :
    Option (State S N V E) :=
  match st.data[i]? with
  | none => none
  | some d => some { st with
      cur := i
      avail := d
      data := st.data.take (i + 1)
      ran := fun t => if t ∈ (P.order.drop (i + 1)).flatten then false else st.ran t }

/-- The loop collecting the inputs, stage_runner.py:146-150. -/
def collect (d : Dict N V) : List N → Except N (List V)
  | [] => .ok []
  | n :: ns =>
    match d n with
    | none => .error n
    | some v =>
      match collect d ns with
      | .error m => .error m
      | .ok vs => .ok (v :: vs)

/-- `_progress_schedule`, stage_runner.py:269-284.  `none` is the `IndexError` of line 271. -/
def progress (P : Pipeline S N V E) (st : State S N V E) : Option (State S N V E) :=
  match P.order[st.cur]? with
  | none => none
  | some e =>
    if e.all st.ran then
      let data := st.data.set st.cur st.avail
      if data.length ≤ st.cur + 1 then
        some { st with data := data ++ [st.next], cur := st.cur + 1, next := st.next + 1,
                       heap := fun r => if r = st.next then (fun _ => none) else st.heap r }
      else some { st with data := data, cur := st.cur + 1 }
    else some st

/-- `run_stage` from line 140 on, when the current schedule item is the stage's,
stage_runner.py:140-168.  The deep copy of the inputs is the subject of `Verif.Isolation`. -/
def execute [DecidableEq S] [DecidableEq N] (P : Pipeline S N V E) (st : State S N V E) (s : S)
    (kw : List (N × V)) : Except (RunError N E) (List (N × V)) × State S N V E :=
  match collect (st.args.putAll kw) (P.fields s) with
  | .error n => (.error (.missingArgument n), st)
  | .ok vs =>
    let res := P.run st.calls.length s vs
    let st := { st with calls := st.calls ++ [⟨s, vs, res⟩] }
    match res with
    | .error e => (.error (.stage e), st)
    | .ok out =>
      let st := { st with
        heap := fun r => if r = st.avail then st.args.putAll out else st.heap r }
      if st.cur < st.data.length then
        let st := { st with data := st.data.set st.cur st.avail,
                            ran := fun t => if t = s then true else st.ran t }
        match progress P st with
        | none => (.error .indexError, st)
        | some st => (.ok out, st)
      else (.error .indexError, st)

/-- `run_stage`, stage_runner.py:110-168; `kw` are the keyword arguments. -/
def runStage [DecidableEq S] [DecidableEq N] (P : Pipeline S N V E) (st : State S N V E) (s : S)
    (kw : List (N × V)) : Except (RunError N E) (List (N × V)) × State S N V E :=
  match indexOf P.order s with
  | none => (.error .unknownStage, st)
  | some i =>
    if st.cur < i then (.error .stageRunning, st)
    else if i ≠ st.cur then
      match rollback P st i with
      | none => (.error .indexError, { st with cur := i })
      | some st => execute P st s kw
    else execute P st s kw

/-- The first two statements of `run_iter`, `run_all` and `run_until_stage`,
stage_runner.py:100-102, 199-201, 220-222: roll back to 0, then make a new dictionary from
the named tuple. -/
def reset [DecidableEq S] (P : Pipeline S N V E) (st : State S N V E) (args : Dict N V) :
    Option (State S N V E) :=
  match rollback P st 0 with
  | none => none
  | some st => some { st with
      avail := st.next
      next := st.next + 1
      heap := fun r => if r = st.next then args else st.heap r }

/-- A loop of `self.run_stage(stage)` that stops at the first exception,
stage_runner.py:203-205. -/
def runStages [DecidableEq S] [DecidableEq N] (P : Pipeline S N V E) :
    List S → State S N V E → Except (RunError N E) Unit × State S N V E
  | [], st => (.ok (), st)
  | s :: ss, st =>
    match runStage P st s [] with
    | (.error e, st) => (.error e, st)
    | (.ok _, st) => runStages P ss st

/-- Reset, run the given stages and return the reference `self._available_arguments`;
stage_runner.py:199-207. -/
def runFrom [DecidableEq S] [DecidableEq N] (P : Pipeline S N V E) (st : State S N V E)
    (args : Dict N V) (stages : List S) : Except (RunError N E) Nat × State S N V E :=
  match reset P st args with
  | none => (.error .indexError, { st with cur := 0 })
  | some st =>
    match runStages P stages st with
    | (.error e, st) => (.error e, st)
    | (.ok (), st) => (.ok st.avail, st)

/-- `run_all`, stage_runner.py:190-207. -/
def runAll [DecidableEq S] [DecidableEq N] (P : Pipeline S N V E) (st : State S N V E)
    (args : Dict N V) : Except (RunError N E) Nat × State S N V E :=
  runFrom P st args P.order.flatten

/-- `run_until_stage`, stage_runner.py:209-231: the loop breaks at the first element that
contains the stage. -/
def runUntil [DecidableEq S] [DecidableEq N] (P : Pipeline S N V E) (st : State S N V E)
    (stop : S) (args : Dict N V) : Except (RunError N E) Nat × State S N V E :=
  runFrom P st args (P.order.takeWhile fun e => stop ∉ e).flatten

/-- A generator object made by `run_iter`, stage_runner.py:90-108: created but not started,
suspended with some stages still to run, or finished (returned or raised). -/
inductive Gen (S N V : Type)
  | created (args : Dict N V)
  | suspended (rest : List S)
  | finished

/-- What `next(generator)` does, stage_runner.py:90-108: yield a stage and its output, stop, or raise. -/
inductive GenOut (S N V E : Type)
  | yields (s : S) (out : List (N × V))
  | stops (ref : Nat)
  | raises (e : RunError N E)

/-- Resume the loop of `run_iter`, stage_runner.py:104-108. -/
def genLoop [DecidableEq S] [DecidableEq N] (P : Pipeline S N V E) (st : State S N V E) :
    List S → GenOut S N V E × Gen S N V × State S N V E
  | [] => (.stops st.avail, .finished, st)
  | s :: ss =>
    match runStage P st s [] with
    | (.error e, st) => (.raises e, .finished, st)
    | (.ok out, st) => (.yields s out, .suspended ss, st)

/-- `next(generator)`, stage_runner.py:90-108.  Nothing happens before the first `next`.  A
finished generator stops at once without touching the runner (its value then is `None`; the
model returns the current reference, which is not used). -/
def genNext [DecidableEq S] [DecidableEq N] (P : Pipeline S N V E) (st : State S N V E) :
    Gen S N V → GenOut S N V E × Gen S N V × State S N V E
  | .created args =>
    match reset P st args with
    | none => (.raises .indexError, .finished, { st with cur := 0 })
    | some st => genLoop P st P.order.flatten
  | .suspended rest => genLoop P st rest
  | .finished => (.stops st.avail, .finished, st)

/-- Calls a user can make on a runner, stage_runner.py:90-233.  Generators live in a list and are named by their
position. -/
inductive Op (S N V : Type)
  | runStage (s : S) (kw : List (N × V))
  | runAll (args : Dict N V)
  | runUntil (stop : S) (args : Dict N V)
  | newIter (args : Dict N V)
  | next (gen : Nat)

/-- A runner together with the generators (stage_runner.py:90) its user holds. -/
structure World (S N V E : Type) where
  st : State S N V E
  gens : List (Gen S N V)

/-- One call of a method, stage_runner.py:90-233; exceptions are caught by the user and the runner lives
on. -/
def step [DecidableEq S] [DecidableEq N] (P : Pipeline S N V E) (w : World S N V E) :
    Op S N V → World S N V E
  | .runStage s kw => { w with st := (runStage P w.st s kw).2 }
  | .runAll args => { w with st := (runAll P w.st args).2 }
  | .runUntil stop args => { w with st := (runUntil P w.st stop args).2 }
  | .newIter args => { w with gens := w.gens ++ [.created args] }
  | .next k =>
    match w.gens[k]? with
    | none => w
    | some g =>
      let r := genNext P w.st g
      { st := r.2.2, gens := w.gens.set k r.2.1 }

/-- A history of calls on a new runner, stage_runner.py:57-88. -/
def exec [DecidableEq S] [DecidableEq N] (P : Pipeline S N V E) (ops : List (Op S N V)) :
    World S N V E :=
  ops.foldl (step P) ⟨.init, []⟩

end Verif.Runner
