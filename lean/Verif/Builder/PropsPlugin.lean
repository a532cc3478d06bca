import Verif.Builder.PluginLemmas
import Verif.Builder.Props
/-!
# Property C137, the schedule: adding a stage that only observes

`/repo/example_plugin.py` is such a stage: it reads results of PYTHIA and writes one new
argument.
-/
set_option autoImplicit false

namespace Verif.Builder

variable {S A : Type} [DecidableEq S] [DecidableEq A]

/-- **C137, schedule.** If a pipeline can be built, then it can still be built after a stage
that only observes has been added, whatever the enumeration orders of the sets; and the new
schedule is the old one with the new stage put in: striking it out leaves the old elements, in
the old order, with the same stages in them. -/
theorem C137_schedule (kind : A → Kind S) (B : Builder S A) (hB : B.stages.Nodup)
    (init : InitArg A) (t : S) (ins outs : List A) (h : Observer kind B init.args t ins outs)
    (π π' : SetOrder S) (sched : List (List S))
    (hb : (build cpython kind B π init).1 = .ok sched) :
    ∃ sched', (build cpython kind (addStage cpython kind B t ins outs).2 π' init).1 = .ok sched' ∧
      (∃ e ∈ sched', t ∈ e) ∧ List.Forall₂ List.Perm sched (strike t sched') := by
  obtain ⟨sched', h1, h2⟩ := build_ext hB h (π' := π') hb
  refine ⟨sched', h1, ?_, h2⟩
  have hext := h.ext
  obtain ⟨hr, _⟩ := build_ok h1
  have hnd' : (addStage cpython kind B t ins outs).2.stages.Nodup := by
    rw [hext.stages, List.nodup_append]
    refine ⟨hB, by simp, ?_⟩
    intro a ha b hb hab
    simp at hb
    subst hb hab
    exact h.new ha
  obtain ⟨_, _, hs, _⟩ := resolve_sched hnd' hr
  rcases hs.all_done t (by rw [hext.stages]; simp) with g | g
  · exact g.elim
  · exact g

/-- A chain of two stages and a third beside the second: 0 makes 1 from 0, 1 makes 2 from 1,
2 makes 3 from 1. -/
def chain : Builder Nat Nat where
  stages := [0, 1, 2]
  ins := fun s => match s with | 0 => [0] | 1 => [1] | 2 => [1] | _ => []
  outs := fun s => match s with | 0 => [1] | 1 => [2] | 2 => [3] | _ => []

/-- A plugin that reads the outputs of the stages 0 and 1 and writes 9. -/
example : Observer (fun _ => .plain) chain [0] 7 [1, 2] [9] where
  new := by decide
  found := by decide
  fresh := by decide
  writes := by decide
  plain := by intro a _ h; cases h

example : (build cpython (fun _ => .plain) chain idOrder (.namedTuple [0])).1 =
    .ok [[0], [1, 2]] := rfl
example : (build cpython (fun _ => .plain)
    (addStage cpython (fun _ => .plain) chain 7 [1, 2] [9]).2 idOrder (.namedTuple [0])).1 =
    .ok [[0], [1, 2], [7]] := rfl
example : strike 7 [[0], [1, 2], [7]] = [[0], [1, 2]] := rfl
/-- A plugin may also land inside an element. -/
example : (build cpython (fun _ => .plain)
    (addStage cpython (fun _ => .plain) chain 7 [1] [9]).2 idOrder (.namedTuple [0])).1 =
    .ok [[0], [1, 2, 7]] := rfl

/-- The claim without the condition that the outputs are new. -/
def AddingKeepsSchedule (kind : A → Kind S) (B : Builder S A) (init : List A) (t : S)
    (ins outs : List A) : Prop :=
  ∀ (π π' : SetOrder S) (sched : List (List S)),
    (build cpython kind B π (.namedTuple init)).1 = .ok sched →
    ∃ sched', (build cpython kind (addStage cpython kind B t ins outs).2 π'
        (.namedTuple init)).1 = .ok sched' ∧
      List.Forall₂ List.Perm sched (strike t sched')

/-- **C137: the outputs must be new.** A plugin that also writes an argument a stage of the
pipeline already writes can make a pipeline that builds fail to build. -/
theorem C137_outputs_must_be_new :
    ¬ AddingKeepsSchedule (fun _ => .plain) chain [0] 7 [1] [3] := by
  intro h
  obtain ⟨sched', h1, _⟩ := h idOrder idOrder [[0], [1, 2]] rfl
  have h2 : (build cpython (fun _ => .plain)
    (addStage cpython (fun _ => .plain) chain 7 [1] [3]).2 idOrder (.namedTuple [0])).1 =
    .error .ambiguousOutput := rfl
  rw [h2] at h1
  cases h1

end Verif.Builder
