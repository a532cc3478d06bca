import Verif.Runner.LatestLemmas
/-!
# Property C138: a stage receives the most recent values
-/
set_option autoImplicit false
set_option linter.unusedSectionVars false

namespace Verif.Runner

variable {S N V E : Type} [DecidableEq S] [DecidableEq N]

/-- The stage executions made by one `run_all` after the given history. -/
def executionsOf (P : Pipeline S N V E) (ops : List (Op S N V)) (args : Dict N V) :
    List (Event S N V E) :=
  let before := (exec P ops).st
  (runAll P before args).2.calls.drop before.calls.length

theorem executionsOf_eq {P : Pipeline S N V E} (hP : P.Proper) (ops : List (Op S N V))
    (args : Dict N V) : executionsOf P ops args =
      applyEvents P (exec P ops).st.calls.length P.order.flatten args := by
  obtain ⟨-, g2, -⟩ := runFrom_apply hP (exec_inv hP.once ops) args P.order [] (by simp)
  unfold executionsOf
  simp only
  change List.drop _ (runFrom _ _ args P.order.flatten).2.calls = _
  rw [g2, List.drop_left]

/-- **C138, inputs.** In every `run_all`, whatever was done with the runner before and whether
or not the run succeeds: the stages executed are the first ones of the schedule, in order, and
each receives, for every field of its input class, the most recent value of that name - the
one returned last by an execution before it in this run, or else the initial value given to
this run. -/
theorem C138_inputs (P : Pipeline S N V E) (hP : P.Proper) (ops : List (Op S N V))
    (args : Dict N V) (i : Nat) (ev : Event S N V E)
    (h : (executionsOf P ops args)[i]? = some ev) :
    P.order.flatten[i]? = some ev.stage ∧ ev.inputs.length = (P.fields ev.stage).length ∧
    ∀ (j : Nat) (n : N), (P.fields ev.stage)[j]? = some n →
      ∃ v, ev.inputs[j]? = some v ∧ Latest args ((executionsOf P ops args).take i) n v := by
  rw [executionsOf_eq hP] at h ⊢
  obtain ⟨h1, h2, h3⟩ := applyEvents_inputs _ _ _ _ _ h
  refine ⟨h1, h2, ?_⟩
  intro j n hj
  obtain ⟨v, g1, g2⟩ := h3 j n hj
  exact ⟨v, g1, latest_iff.2 g2⟩

/-- **C138, result.** The dictionary a successful `run_all` returns holds, under every name,
exactly the most recent value of that name. -/
theorem C138_result (P : Pipeline S N V E) (hP : P.Proper) (ops : List (Op S N V))
    (args d : Dict N V) (hd : contents (runAll P (exec P ops).st args) = .ok d) (n : N) (v : V) :
    d n = some v ↔ Latest args (executionsOf P ops args) n v := by
  obtain ⟨h1, -⟩ := runFrom_apply hP (exec_inv hP.once ops) args P.order [] (by simp)
  change contents (runFrom _ _ args P.order.flatten) = .ok d at hd
  rw [h1] at hd
  rw [latest_iff, executionsOf_eq hP, applyAll_held _ _ _ _ hd]

/-- Stage 0 makes 1 from 0, stage 1 rewrites 1, stage 2 makes 2 from 0 and 1. -/
def rewriting : Pipeline Nat Nat Int Unit where
  order := [[0], [1], [2]]
  fields := fun s => match s with | 0 => [0] | 1 => [1] | _ => [0, 1]
  run := fun _ s vs => match s, vs with
    | 0, [v] => .ok [(1, v + 1)]
    | 1, [v] => .ok [(1, 10 * v)]
    | 2, [v, w] => .ok [(2, v + w)]
    | _, _ => .error ()

example : rewriting.Proper := ⟨by decide, by decide⟩
/-- Stage 2 receives the value stage 1 wrote, on a runner that was used before with other
values. -/
example : ((executionsOf rewriting [.runAll fun n => if n = 0 then some 7 else none]
    (fun n => if n = 0 then some 3 else none)).map Event.inputs) = [[3], [4], [3, 40]] := rfl
example : Latest (fun n => if n = 0 then some (3 : Int) else none)
    ((executionsOf rewriting [] (fun n => if n = 0 then some 3 else none)).take 2) 1 40 :=
  .inl ⟨[⟨0, [3], .ok [(1, 4)]⟩], ⟨1, [4], .ok [(1, 40)]⟩, [], [(1, 40)], rfl, rfl,
    ⟨[], [], rfl, by simp⟩, by simp⟩

end Verif.Runner
