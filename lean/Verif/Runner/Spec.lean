import Verif.Runner.Model
/-!
# What a run of a pipeline should compute

A pure description, without heap, flags or rollback: stages are applied one after the other
to a dictionary.
-/
set_option autoImplicit false

namespace Verif.Runner

variable {S N V E : Type}

/-- The dictionary `d` overridden by the pairs of `out` (for a repeated key the last wins). -/
def override [DecidableEq N] (d : Dict N V) (out : List (N × V)) : Dict N V :=
  fun n => match out.reverse.find? (fun p => p.1 = n) with
    | some p => some p.2
    | none => d n

/-- Apply one stage to a dictionary: look up its fields, run it, override the dictionary with
what it returned.  `k` numbers the execution. -/
def applyStage [DecidableEq N] (P : Pipeline S N V E) (k : Nat) (s : S) (d : Dict N V) :
    Except (RunError N E) (Dict N V) :=
  match (P.fields s).find? (fun n => (d n).isNone) with
  | some n => .error (.missingArgument n)
  | none =>
    match P.run k s ((P.fields s).filterMap d) with
    | .error e => .error (.stage e)
    | .ok out => .ok (override d out)

/-- Apply stages one after the other. -/
def applyAll [DecidableEq N] (P : Pipeline S N V E) :
    Nat → List S → Dict N V → Except (RunError N E) (Dict N V)
  | _, [], d => .ok d
  | k, s :: ss, d =>
    match applyStage P k s d with
    | .error e => .error e
    | .ok d' => applyAll P (k + 1) ss d'

/-- The stage executions made when stages are applied one after the other: which stage
received which inputs and what came out.  The list ends at the first failure. -/
def applyEvents [DecidableEq N] (P : Pipeline S N V E) :
    Nat → List S → Dict N V → List (Event S N V E)
  | _, [], _ => []
  | k, s :: ss, d =>
    match (P.fields s).find? (fun n => (d n).isNone) with
    | some _ => []
    | none =>
      match P.run k s ((P.fields s).filterMap d) with
      | .error e => [⟨s, (P.fields s).filterMap d, .error e⟩]
      | .ok out => ⟨s, (P.fields s).filterMap d, .ok out⟩ ::
          applyEvents P (k + 1) ss (override d out)

/-- The stages do not care how often something was run before. -/
def Pipeline.Deterministic (P : Pipeline S N V E) : Prop :=
  ∀ k k' s vs, P.run k s vs = P.run k' s vs

/-- The schedule lists every stage once and has no empty element, as every schedule built by
the stage builder does (C01). -/
structure Pipeline.Proper (P : Pipeline S N V E) : Prop where
  once : P.order.flatten.Nodup
  nonempty : ∀ e ∈ P.order, e ≠ []

/-- The outcome of a run as its caller sees it: the exception, or the contents of the
returned dictionary. -/
def contents (r : Except (RunError N E) Nat × State S N V E) :
    Except (RunError N E) (Dict N V) :=
  match r.1 with
  | .error e => .error e
  | .ok ref => .ok (r.2.heap ref)

/-- Stage `s` was run successfully in the given list of executions. -/
def Succeeded (calls : List (Event S N V E)) (s : S) : Prop :=
  ∃ ev ∈ calls, ev.stage = s ∧ ∃ out, ev.result = .ok out

/-- What a stage may write: the names in every result it can return. -/
def Writes (P : Pipeline S N V E) (s : S) (n : N) : Prop :=
  ∃ k vs out, P.run k s vs = .ok out ∧ n ∈ out.map Prod.fst

/-- Calling `next` on a generator until it stops or raises, with nothing in between.  The
list holds what it yielded. -/
inductive Consumes [DecidableEq S] [DecidableEq N] (P : Pipeline S N V E) : State S N V E → Gen S N V → List (S × List (N × V)) →
    Except (RunError N E) Nat → State S N V E → Prop
  | stops {st g ref g' st'} : genNext P st g = (.stops ref, g', st') →
      Consumes P st g [] (.ok ref) st'
  | raises {st g e g' st'} : genNext P st g = (.raises e, g', st') →
      Consumes P st g [] (.error e) st'
  | yields {st g s out g' st' ys res st''} : genNext P st g = (.yields s out, g', st') →
      Consumes P st' g' ys res st'' → Consumes P st g ((s, out) :: ys) res st''

end Verif.Runner
