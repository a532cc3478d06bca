import Verif.Pipeline.RowLemmas
/-!
# Property C26: instance labels through the pipeline
-/
set_option autoImplicit false
set_option linter.unusedSectionVars false

namespace Verif.Pipeline

open Verif.Builder Verif.Runner

/-- The claim for one data set and one choice of options: in every successful `run_all`, the
dictionary from which the Model is built has the same instances, in the same order, in the
labels and in the rows of `x`. -/
def LabelsAligned (env : RowEnv) (ids : List Nat) : Prop :=
  ∀ (order : List Stg) (π : SetOrder Stg) (sched : List (List Stg)),
    order.Perm defaultStages → buildDefault order π = .ok sched →
    ∀ d, contents (runAll (runner order sched (rowRun env)) State.init (rowArgs ids)) = .ok d →
      ∃ rows, d .x = some (.inst rows) ∧ d .inst_labels = some (.inst rows)

/-- Three instances, of which Prelim takes the first and the third. -/
def subsetEnv : RowEnv := ⟨[true, true, true], some [true, false, true], false⟩

/-- **C26 is false of the code**: with a subset, `x` has two rows and there are three labels. -/
theorem C26_refuted : ¬ LabelsAligned subsetEnv [7, 8, 9] := by
  intro h
  obtain ⟨rows, hx, hl⟩ := h defaultStages listOrder defaultSchedule (.refl _) default_once _ rfl
  have hx' : some (Val.inst [7, 9]) = some (.inst rows) := hx
  have hl' : some (Val.inst [7, 8, 9]) = some (.inst rows) := hl
  rw [← hx'] at hl'
  exact absurd hl' (by decide)

/-- **C26, true part.** Without subsetting the labels are aligned, whatever rows Preprocessing
removes. Missing: runs with a subset of the instances. -/
theorem C26_partial (keep : List Bool) (raises : Bool) (ids : List Nat) :
    LabelsAligned ⟨keep, none, raises⟩ ids := by
  intro order π sched horder hs d hd
  have h := (run_rows _ ids order horder π sched hs d hd).2
  simp only [evalNames, List.map_cons, List.map_nil, List.replicate, List.cons_append,
    List.nil_append, List.cons.injEq, and_true] at h
  exact ⟨_, h.1, h.2.2.2.2.2.2.2.2.2.2.2.2.2.2⟩

/-- **C26, the exact effect of a subset.** The labels of the Model are those of all the instances
that Preprocessing keeps; the rows of `x` are the subset; they agree only if the subset drops
nothing. -/
theorem C26_exact_partial (env : RowEnv) (m : List Bool) (hm : env.subset = some m)
    (hr : env.siftedRaises = false) (ids : List Nat) :
    LabelsAligned env ids ↔ select m (select env.keep ids) = select env.keep ids := by
  constructor
  · intro h
    obtain ⟨d, hd⟩ := run_exists env hr ids
    obtain ⟨rows, hx, hl⟩ := h defaultStages listOrder defaultSchedule (.refl _) default_once d hd
    have h := (run_rows env ids defaultStages (.refl _) listOrder _ default_once d hd).2
    simp only [evalNames, List.map_cons, List.map_nil, List.replicate, List.cons_append,
      List.nil_append, List.cons.injEq, and_true, hm] at h
    rw [hx] at h
    rw [hl] at h
    have h1 := h.1
    have h2 := h.2.2.2.2.2.2.2.2.2.2.2.2.2.2
    simp only [Option.some.injEq, Val.inst.injEq] at h1 h2
    rw [← h1, ← h2]
  · intro he order π sched horder hs d hd
    have h := (run_rows env ids order horder π sched hs d hd).2
    simp only [evalNames, List.map_cons, List.map_nil, List.replicate, List.cons_append,
      List.nil_append, List.cons.injEq, and_true, hm] at h
    exact ⟨_, h.1, by rw [he]; exact h.2.2.2.2.2.2.2.2.2.2.2.2.2.2⟩

example : ¬ (select [true, false, true] (select [true, true, true] [7, 8, 9]) =
    select [true, true, true] [7, 8, 9]) := by decide
example : select [true, true] (select [true, false, true] [7, 8, 9]) =
    select [true, false, true] [7, 8, 9] := by decide

/-- **C26, everything but the labels.** All other per-instance values of the Model, and the
labels returned under the name `instlabels` that nothing reads, are aligned with `x` for every
option. -/
theorem C26_other_values_partial (env : RowEnv) (ids : List Nat) (order : List Stg)
    (horder : order.Perm defaultStages) (π : SetOrder Stg) (sched : List (List Stg))
    (hs : buildDefault order π = .ok sched) (d : Dict Name Val)
    (hd : contents (runAll (runner order sched (rowRun env)) State.init (rowArgs ids)) = .ok d) :
    ∃ rows, d .x = some (.inst rows) ∧ ∀ n ∈ [Name.y, .x_raw, .y_raw, .y_bin, .y_best, .p,
      .num_good_algos, .beta, .s, .z, .y_hat, .selection0, .instlabels], d n = some (.inst rows) := by
  have h := (run_rows env ids order horder π sched hs d hd).2
  simp only [evalNames, List.map_cons, List.map_nil, List.replicate, List.cons_append,
    List.nil_append, List.cons.injEq, and_true] at h
  refine ⟨_, h.1, ?_⟩
  simp only [List.mem_cons, List.not_mem_nil, or_false, forall_eq_or_imp, forall_eq]
  exact ⟨h.2.1, h.2.2.1, h.2.2.2.1, h.2.2.2.2.1, h.2.2.2.2.2.1, h.2.2.2.2.2.2.1,
    h.2.2.2.2.2.2.2.1, h.2.2.2.2.2.2.2.2.1, h.2.2.2.2.2.2.2.2.2.1, h.2.2.2.2.2.2.2.2.2.2.1,
    h.2.2.2.2.2.2.2.2.2.2.2.1, h.2.2.2.2.2.2.2.2.2.2.2.2.1, h.2.2.2.2.2.2.2.2.2.2.2.2.2.1⟩

/-- A run with a subset succeeds, so the theorems above are not empty. -/
example : (contents (runAll (runner defaultStages defaultSchedule (rowRun subsetEnv)) State.init
    (rowArgs [7, 8, 9]))).toOption.isSome := by decide +kernel

end Verif.Pipeline
