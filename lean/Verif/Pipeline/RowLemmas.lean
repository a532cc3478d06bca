import Verif.Pipeline.Rows
import Verif.Pipeline.Props
/-! Evaluation of the row model. -/
set_option autoImplicit false
set_option linter.unusedSectionVars false

namespace Verif.Pipeline

open Verif.Builder Verif.Runner

/-- The runner does not depend on the order of adding the stages except through the schedule. -/
theorem runner_eq {V E : Type} (order : List Stg) (horder : order.Perm defaultStages)
    (sched : List (List Stg)) (run : Nat → Stg → List V → Except E (List (Name × V))) :
    runner order sched run = ⟨sched, fun s => (inputs s).map Prod.fst, run⟩ := by
  unfold runner pipelineOf
  congr 1
  funext s
  rw [((builderOf_tables order horder).2 s).1]

/-- The names with one row per instance that the Model's `Data` reads, without the labels, and
the two names for labels. -/
def evalNames : List Name := [.x, .y, .x_raw, .y_raw, .y_bin, .y_best, .p, .num_good_algos, .beta,
  .s, .z, .y_hat, .selection0, .instlabels, .inst_labels]

/-- The rows of all values after a run, for both schedules. -/
theorem eval_rows (env : RowEnv) (h : env.siftedRaises = false) (ids : List Nat)
    (sched : List (List Stg))
    (hs : sched = [[.preprocessing], [.prelim], [.sifted], [.pilot], [.pythia, .cloister], [.trace]] ∨
      sched = [[.preprocessing], [.prelim], [.sifted], [.pilot], [.cloister, .pythia], [.trace]]) :
    (applyAll ⟨sched, fun s => (inputs s).map Prod.fst, rowRun env⟩ 0 sched.flatten
      (rowArgs ids)).map (fun d => evalNames.map d) =
    .ok (List.replicate 14 (some (.inst (match env.subset with
        | none => select env.keep ids
        | some m => select m (select env.keep ids)))) ++
      [some (.inst (select env.keep ids))]) := by
  obtain ⟨keep, subset, sr⟩ := env
  cases h
  rcases hs with rfl | rfl <;> cases subset <;> rfl

/-- Sifted raises. -/
theorem eval_raises (env : RowEnv) (h : env.siftedRaises = true) (ids : List Nat)
    (sched : List (List Stg))
    (hs : sched = [[.preprocessing], [.prelim], [.sifted], [.pilot], [.pythia, .cloister], [.trace]] ∨
      sched = [[.preprocessing], [.prelim], [.sifted], [.pilot], [.cloister, .pythia], [.trace]]) :
    applyAll ⟨sched, fun s => (inputs s).map Prod.fst, rowRun env⟩ 0 sched.flatten
      (rowArgs ids) = .error (.stage ()) := by
  obtain ⟨keep, subset, sr⟩ := env
  cases h
  rcases hs with rfl | rfl <;> cases subset <;> rfl

/-- The rows of every value of a successful run. -/
theorem run_rows (env : RowEnv) (ids : List Nat) (order : List Stg)
    (horder : order.Perm defaultStages) (π : SetOrder Stg) (sched : List (List Stg))
    (hs : buildDefault order π = .ok sched) (d : Dict Name Val)
    (hd : contents (runAll (runner order sched (rowRun env)) State.init (rowArgs ids)) = .ok d) :
    env.siftedRaises = false ∧
    evalNames.map d = List.replicate 14 (some (.inst (match env.subset with
        | none => select env.keep ids
        | some m => select m (select env.keep ids)))) ++
      [some (.inst (select env.keep ids))] := by
  have hB := (builderOf_tables order horder).1
  have hP : (runner order sched (rowRun env)).Proper := built_proper hB hs _
  obtain ⟨h1, -⟩ := runFrom_apply hP (Inv.init _) (rowArgs ids) sched [] (by simp [pipelineOf])
  change contents (runFrom _ _ (rowArgs ids) sched.flatten) = .ok d at hd
  rw [h1, runner_eq order horder] at hd
  have hsched : sched = [[.preprocessing], [.prelim], [.sifted], [.pilot], [.pythia, .cloister], [.trace]] ∨
      sched = [[.preprocessing], [.prelim], [.sifted], [.pilot], [.cloister, .pythia], [.trace]] := by
    rcases C10_default_schedule order horder π with h | h <;> rw [h] at hs <;> cases hs
    · exact .inl rfl
    · exact .inr rfl
  cases hr : env.siftedRaises with
  | true =>
    rw [show (State.init : State Stg Name Val Unit).calls.length = 0 from rfl,
      eval_raises env hr ids sched hsched] at hd
    cases hd
  | false =>
    have := eval_rows env hr ids sched hsched
    rw [show applyAll _ 0 sched.flatten (rowArgs ids) = .ok d from hd] at this
    exact ⟨rfl, Except.ok.inj this⟩

/-- The run succeeds when Sifted does not raise. -/
theorem run_exists (env : RowEnv) (hr : env.siftedRaises = false) (ids : List Nat) :
    ∃ d, contents (runAll (runner defaultStages defaultSchedule (rowRun env))
      State.init (rowArgs ids)) = .ok d := by
  have hB := (builderOf_tables defaultStages (.refl _)).1
  have hP : (runner defaultStages defaultSchedule (rowRun env)).Proper :=
    built_proper hB default_once _
  obtain ⟨h1, -⟩ := runFrom_apply hP (Inv.init _) (rowArgs ids) defaultSchedule []
    (by simp [pipelineOf])
  change ∃ d, contents (runFrom _ _ (rowArgs ids) defaultSchedule.flatten) = .ok d
  rw [h1, runner_eq defaultStages (.refl _)]
  have := eval_rows env hr ids defaultSchedule (.inl rfl)
  rw [show (State.init : State Stg Name Val Unit).calls.length = 0 from rfl]
  generalize applyAll _ 0 defaultSchedule.flatten (rowArgs ids) = r at this
  cases r with
  | error e => cases this
  | ok d => exact ⟨d, rfl⟩

end Verif.Pipeline
