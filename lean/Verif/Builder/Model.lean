/-!
# Model of `instancespace/stage_builder.py`

Python sets of stages and of arguments are lists read up to membership.  Wherever the code
iterates over a set of stages the list is first reordered by an arbitrary enumeration
(`SetOrder`), because Python's order depends on hash values.  Exceptions are values.
-/
set_option autoImplicit false

namespace Verif.Builder

variable {S A : Type} [DecidableEq S] [DecidableEq A]

/-- Exceptions that leave `StageBuilder.build`.
`ambiguousMutating`, `ambiguousOutput` and `missingInputs` are the three
`StageResolutionError`s of stage_builder.py:368-373, 210-215 and 250-257;
`indexError` is `get_args(..)[0]` on an empty tuple (stage_builder.py:299, 308);
`stageRunning` is the `StageRunningError` of stage_runner.py:247-251.
`outOfFuel` is an artefact of the model (see `loop`); it is proved unreachable. -/
inductive BuildError
  | ambiguousMutating
  | ambiguousOutput
  | missingInputs
  | indexError
  | stageRunning
  | outOfFuel
  deriving DecidableEq, Repr

/-- What the code can find out about the declared type of an argument
(stages/stage.py:47-52, stage_builder.py:110, 268-272, 295-307).
`beforeAlias s` is the annotation `RunBefore[s]` (a `typing` generic alias), `beforeClass`
is the class `RunBefore` itself or a class derived from it; likewise for `RunAfter`.
`plain` is every other type. -/
inductive Kind (S : Type)
  | plain
  | beforeAlias (s : S)
  | afterAlias (s : S)
  | beforeClass
  | afterClass
  deriving DecidableEq, Repr

/-- The part of the Python runtime the code relies on: does `isinstance(X[s], type)` hold
for a `typing` generic alias?  stage_builder.py:110, 268, 295, 304. -/
structure Runtime where
  aliasIsType : Bool

/-- CPython 3.12 (pyproject.toml:19): a `typing` generic alias is not an instance of `type`. -/
def cpython : Runtime := ⟨false⟩

/-- `isinstance(t, type) and issubclass(t, RunBefore)`, stage_builder.py:295-298. -/
def isBefore (rt : Runtime) : Kind S → Bool
  | .beforeAlias _ => rt.aliasIsType
  | .beforeClass => true
  | _ => false

/-- `isinstance(t, type) and issubclass(t, RunAfter)`, stage_builder.py:304-307. -/
def isAfter (rt : Runtime) : Kind S → Bool
  | .afterAlias _ => rt.aliasIsType
  | .afterClass => true
  | _ => false

/-- The state of a `StageBuilder`, stage_builder.py:70-81: the set of stages and the two
dictionaries.  The dictionaries are total functions here; they are only read at added
stages. -/
structure Builder (S A : Type) where
  stages : List S
  ins : S → List A
  outs : S → List A

/-- `StageBuilder.__init__`, stage_builder.py:74-81. -/
def Builder.empty : Builder S A := ⟨[], fun _ => [], fun _ => []⟩

/-- Exceptions of `add_stage`, stage_builder.py:102-104 and 113-116. -/
inductive AddError
  | valueError
  | typeError
  deriving DecidableEq, Repr

/-- `StageBuilder.add_stage`, stage_builder.py:83-122.  `ins` and `outs` are the argument
sets of `stage._inputs()` and `stage._outputs()`.  The second component is the builder
afterwards. -/
def addStage (rt : Runtime) (kind : A → Kind S) (B : Builder S A) (s : S)
    (ins outs : List A) : Except AddError Unit × Builder S A :=
  if s ∈ B.stages then (.error .valueError, B)
  else if outs.any (fun a => isBefore rt (kind a) || isAfter rt (kind a)) then
    (.error .typeError, B)
  else
    (.ok (), { stages := B.stages ++ [s],
               ins := fun t => if t = s then ins else B.ins t,
               outs := fun t => if t = s then outs else B.outs t })

/-- `_strip_run_restriction_arguments`, stage_builder.py:261-273. -/
def strip (rt : Runtime) (kind : A → Kind S) (args : List A) : List A :=
  args.filter fun a => !(isBefore rt (kind a) || isAfter rt (kind a))

/-- `mutating_arguments` of one stage, stage_builder.py:279-283. -/
def mutatingArgs (B : Builder S A) (s : S) : List A :=
  (B.ins s).filter fun a => a ∈ B.outs s

/-- Membership in the dictionary `mutating_stages`, stage_builder.py:285-286. -/
def isMutating (B : Builder S A) (s : S) : Bool := !(mutatingArgs B s).isEmpty

/-- The body of the inner loop of `_get_ordering_restrictions`,
stage_builder.py:295-311.  A recognised alias yields a (before, after) pair; a recognised
class has no type arguments, so indexing them raises. -/
def argRestrictions (rt : Runtime) (kind : A → Kind S) (s : S) (a : A) :
    Except BuildError (List (S × S)) :=
  match kind a with
  | .plain => .ok []
  | .beforeAlias t => if rt.aliasIsType then .ok [(s, t)] else .ok []
  | .afterAlias t => if rt.aliasIsType then .ok [(t, s)] else .ok []
  | .beforeClass => .error .indexError
  | .afterClass => .error .indexError

/-- The two nested loops of `_get_ordering_restrictions`, stage_builder.py:290-312, over the
list of all (stage, input argument) pairs. -/
def gatherRestrictions (rt : Runtime) (kind : A → Kind S) :
    List (S × A) → Except BuildError (List (S × S))
  | [] => .ok []
  | (s, a) :: rest =>
    match argRestrictions rt kind s a with
    | .error e => .error e
    | .ok r =>
      match gatherRestrictions rt kind rest with
      | .error e => .error e
      | .ok rs => .ok (r ++ rs)

/-- `_get_ordering_restrictions`, stage_builder.py:290-312. -/
def orderingRestrictions (rt : Runtime) (kind : A → Kind S) (B : Builder S A) :
    Except BuildError (List (S × S)) :=
  gatherRestrictions rt kind (B.stages.flatMap fun s => (B.ins s).map fun a => (s, a))

/-- `run_after` of `_get_restrictions_for_stage`, stage_builder.py:314-328.  (`run_before` is
computed there but never used.) -/
def runAfter (restr : List (S × S)) (s : S) : List S :=
  (restr.filter fun p => p.2 = s).map Prod.fst

/-- `_stage_resolves`, stage_builder.py:330-348. -/
def stageResolves (rt : Runtime) (kind : A → Kind S) (B : Builder S A)
    (restr : List (S × S)) (resolved : List S) (avail : List A) (s : S) : Bool :=
  (strip rt kind (B.ins s)).all (fun a => a ∈ avail) &&
    (runAfter restr s).all (fun t => t ∈ resolved)

/-- `_mutating_stages_check`, stage_builder.py:350-394. -/
def mutatingCheck (B : Builder S A) (canRun : List S) : Except BuildError (List S) :=
  let mcr := canRun.filter (isMutating B)
  if mcr.isEmpty then .ok canRun
  else if mcr.any (fun s => mcr.any fun o =>
      (o != s) && (mutatingArgs B s).any (fun a => a ∈ mutatingArgs B o)) then
    .error .ambiguousMutating
  else
    let mutated := mcr.flatMap (mutatingArgs B)
    .ok (canRun.filter fun s =>
      ((B.ins s).filter fun a =>
        decide (a ∈ mutated) && !(isMutating B s && decide (a ∈ mutatingArgs B s))).isEmpty)

/-- `self._stages - resolved_stages`, stage_builder.py:180, 188, 226. -/
def unresolved (B : Builder S A) (resolved : List S) : List S :=
  B.stages.filter fun s => s ∉ resolved

/-- An enumeration order for Python sets of stages; the natural number is the round, so that
the order may change between iterations (the loops over sets at stage_builder.py:185-223).  It may
be any reordering. -/
structure SetOrder (S : Type) where
  order : Nat → List S → List S
  perm : ∀ n l, (order n l).Perm l

/-- One pass of the `while` body up to the conflict check, stage_builder.py:185-215. -/
def round (rt : Runtime) (kind : A → Kind S) (B : Builder S A) (restr : List (S × S))
    (π : SetOrder S) (n : Nat) (resolved : List S) (avail : List A) :
    Except BuildError (List S) :=
  let canRun := (π.order n (unresolved B resolved)).filter
    (stageResolves rt kind B restr resolved avail)
  match mutatingCheck B canRun with
  | .error e => .error e
  | .ok post =>
    if post.any (fun s => post.any fun o =>
        (o != s) && (B.outs s).any (fun a => a ∈ B.outs o)) then
      .error .ambiguousOutput
    else .ok post

/-- Result of resolution together with the final contents of the set object
`available_inputs`, which is the very object passed by the caller
(stage_builder.py:161, 220). -/
structure Resolution (S A : Type) where
  out : Except BuildError (List (List S))
  avail : List A

/-- The `while` loop, stage_builder.py:175-259.  `stage_order` is returned front to back
instead of being accumulated.  `resolved_stages.add(stage)` is inside the loop over the
stage's outputs (line 221), so a stage without outputs is never added.  The loop is written
with fuel; `resolve` supplies enough (theorem `resolve_fuel`). -/
def loop (rt : Runtime) (kind : A → Kind S) (B : Builder S A) (restr : List (S × S))
    (π : SetOrder S) : Nat → Nat → List S → List A → Resolution S A
  | 0, _, _, avail => ⟨.error .outOfFuel, avail⟩
  | fuel + 1, n, resolved, avail =>
    if (unresolved B resolved).isEmpty then ⟨.ok [], avail⟩
    else
      match round rt kind B restr π n resolved avail with
      | .error e => ⟨.error e, avail⟩
      | .ok post =>
        let resolved' := resolved ++ post.filter (fun s => !(B.outs s).isEmpty)
        let avail' := avail ++ post.flatMap B.outs
        let element := π.order n post
        if resolved'.any (fun s => s ∉ resolved) then
          let r := loop rt kind B restr π fuel (n + 1) resolved' avail'
          match r.out with
          | .error e => ⟨.error e, r.avail⟩
          | .ok rest => ⟨.ok (element :: rest), r.avail⟩
        else if (unresolved B resolved').isEmpty then ⟨.ok [element], avail'⟩
        else ⟨.error .missingInputs, avail'⟩

/-- `_resolve_stages`, stage_builder.py:153-259. -/
def resolve (rt : Runtime) (kind : A → Kind S) (B : Builder S A) (π : SetOrder S)
    (init : List A) : Resolution S A :=
  match orderingRestrictions rt kind B with
  | .error e => ⟨.error e, init⟩
  | .ok restr => loop rt kind B restr π (B.stages.length + 1) 0 [] init

/-- `StageRunner._check_stage_order_is_runnable`, stage_runner.py:235-254. -/
def checkRunnable (B : Builder S A) : List A → List (List S) → Bool
  | _, [] => true
  | avail, e :: rest =>
    e.all (fun s => (B.ins s).all fun a => a ∈ avail) &&
      checkRunnable B (avail ++ e.flatMap B.outs) rest

/-- The argument of `build`, stage_builder.py:126, 137-142: a set object owned by the caller
or a NamedTuple class (given by the set of its annotations). -/
inductive InitArg (A : Type)
  | setObject (contents : List A)
  | namedTuple (fields : List A)

/-- The annotations `build` starts from, stage_builder.py:137-142. -/
def InitArg.args : InitArg A → List A
  | .setObject c => c
  | .namedTuple f => f

/-- `StageBuilder.build`, stage_builder.py:124-151.  Returns the schedule of the runner (or
the exception) and the caller's argument as it is afterwards: a set object has been mutated
by the resolution, a NamedTuple class is untouched because a fresh set is made from it.
The runner's own check is given the same, mutated, set (lines 146-151). -/
def build (rt : Runtime) (kind : A → Kind S) (B : Builder S A) (π : SetOrder S)
    (init : InitArg A) : Except BuildError (List (List S)) × InitArg A :=
  let r := resolve rt kind B π init.args
  let after : InitArg A :=
    match init with
    | .setObject _ => .setObject r.avail
    | .namedTuple f => .namedTuple f
  match r.out with
  | .error e => (.error e, after)
  | .ok sched =>
    if checkRunnable B r.avail sched then (.ok sched, after)
    else (.error .stageRunning, after)

end Verif.Builder
