import Verif.Builder.Model
import Mathlib.Data.List.Forall2
/-!
# What users rely on, stated about schedules

These definitions speak about the declared inputs and outputs of the stages and about a
schedule (a list of elements, each a list of stages).  They do not mention the resolver.
-/
set_option autoImplicit false

namespace Verif.Builder

variable {S A : Type}

/-- Stage `s` is in element number `i` of the schedule. -/
def StageAt (sched : List (List S)) (i : Nat) (s : S) : Prop :=
  ∃ e, sched[i]? = some e ∧ s ∈ e

/-- Argument `a` is an initial input or an output of a stage of an element before `i`. -/
def AvailableBefore (outs : S → List A) (init : List A) (sched : List (List S)) (i : Nat)
    (a : A) : Prop :=
  a ∈ init ∨ ∃ j t, j < i ∧ StageAt sched j t ∧ a ∈ outs t

/-- The schedule contains exactly the given stages, each exactly once, in nonempty
elements, and every input of a stage is available before its element. -/
structure ValidSchedule (stages : List S) (ins outs : S → List A) (init : List A)
    (sched : List (List S)) : Prop where
  complete : ∀ s, s ∈ stages ↔ ∃ i, StageAt sched i s
  once : sched.flatten.Nodup
  nonempty : ∀ e ∈ sched, e ≠ []
  inputs : ∀ i s, StageAt sched i s → ∀ a ∈ ins s, AvailableBefore outs init sched i a

/-- Two outcomes agree: the same exception, or schedules that agree element by element up to
the order inside the elements. -/
inductive SameOutcome {E : Type} :
    Except E (List (List S)) → Except E (List (List S)) → Prop
  | error (e : E) : SameOutcome (.error e) (.error e)
  | ok (l₁ l₂ : List (List S)) (h : List.Forall₂ List.Perm l₁ l₂) : SameOutcome (.ok l₁) (.ok l₂)

/-- A linear order of the stages in which every stage finds its inputs. -/
def Runnable (ins outs : S → List A) (init : List A) (order : List S) : Prop :=
  ∀ (i : Nat) (s : S), order[i]? = some s → ∀ a ∈ ins s,
    a ∈ init ∨ ∃ (j : Nat) (t : S), j < i ∧ order[j]? = some t ∧ a ∈ outs t

/-- Stage `s` declares that it must run before stage `t`, either itself (`RunBefore[t]`) or
through `t` declaring `RunAfter[s]`. -/
def MustPrecede (kind : A → Kind S) (B : Builder S A) (s t : S) : Prop :=
  (∃ a ∈ B.ins s, kind a = .beforeAlias t) ∨ (∃ a ∈ B.ins t, kind a = .afterAlias s)

/-- A call of `add_stage`: the stage and the arguments it declares. -/
structure Call (S A : Type) where
  stage : S
  ins : List A
  outs : List A

/-- Running a sequence of `add_stage` calls, ignoring the ones that raise (as a caller who
catches the exceptions would). -/
def runCalls [DecidableEq S] (rt : Runtime) (kind : A → Kind S) :
    List (Call S A) → Builder S A → Builder S A
  | [], B => B
  | c :: cs, B => runCalls rt kind cs (addStage rt kind B c.stage c.ins c.outs).2

/-- Python recognises the type as a run restriction: the classes `RunBefore` and `RunAfter`
(and classes derived from them) always, `RunBefore[..]` and `RunAfter[..]` only if generic
aliases are types. -/
inductive Recognised (rt : Runtime) : Kind S → Prop
  | beforeClass : Recognised rt .beforeClass
  | afterClass : Recognised rt .afterClass
  | beforeAlias (h : rt.aliasIsType = true) (s : S) : Recognised rt (.beforeAlias s)
  | afterAlias (h : rt.aliasIsType = true) (s : S) : Recognised rt (.afterAlias s)

/-- `c` declares no output that Python recognises as a run restriction. -/
def Call.clean (rt : Runtime) (kind : A → Kind S) (c : Call S A) : Prop :=
  ∀ a ∈ c.outs, ¬ Recognised rt (kind a)

/-- A linear order of the stages in which every stage finds its data inputs, and which obeys
the run restrictions the stages declare. -/
structure ObeyingOrder (kind : A → Kind S) (ins outs : S → List A) (init : List A)
    (order : List S) : Prop where
  data : ∀ (i : Nat) (s : S), order[i]? = some s → ∀ a ∈ ins s, kind a = .plain →
    a ∈ init ∨ ∃ (j : Nat) (t : S), j < i ∧ order[j]? = some t ∧ a ∈ outs t
  after : ∀ (i : Nat) (s t : S), order[i]? = some s → ∀ a ∈ ins s, kind a = .afterAlias t →
    ∃ j : Nat, j < i ∧ order[j]? = some t
  before : ∀ (i j : Nat) (s t : S), order[i]? = some s → ∀ a ∈ ins s, kind a = .beforeAlias t →
    order[j]? = some t → i < j

/-- A stage that only observes: it is new, every input it declares is an initial input or an
output of a stage already there, every output it declares is a new argument (declared by no
other stage, and not read by the stage itself), it declares at least one output, and no
argument of it is a class Python recognises as a run restriction. -/
structure Observer (kind : A → Kind S) (B : Builder S A) (init : List A) (t : S)
    (ins outs : List A) : Prop where
  new : t ∉ B.stages
  found : ∀ a ∈ ins, a ∈ init ∨ ∃ s ∈ B.stages, a ∈ B.outs s
  fresh : ∀ a ∈ outs, a ∉ ins ∧ ∀ s ∈ B.stages, a ∉ B.ins s ∧ a ∉ B.outs s
  writes : outs ≠ []
  plain : ∀ a ∈ ins ++ outs, ¬ Recognised cpython (kind a)

/-- An element of a schedule without one stage. -/
def without [DecidableEq S] (t : S) (l : List S) : List S := l.filter fun s => decide (s ≠ t)

/-- What is left of a schedule when one stage is struck out of it: the elements without the
stage, leaving out the elements that become empty. -/
def strike [DecidableEq S] (t : S) (sched : List (List S)) : List (List S) :=
  (sched.map (without t)).filter fun e => !e.isEmpty

end Verif.Builder
