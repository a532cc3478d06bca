import Verif.Pipeline.Lemmas
/-!
# Properties C10, C25, and C11 and C18 for the default pipeline
-/
set_option autoImplicit false
set_option linter.unusedSectionVars false

namespace Verif.Pipeline

open Verif.Builder Verif.Runner

/-! ### C10 -/

/-- The schedule the documentation of the default pipeline describes. -/
def defaultSchedule : List (List Stg) :=
  [[.preprocessing], [.prelim], [.sifted], [.pilot], [.pythia, .cloister], [.trace]]

/-- An enumeration of sets in list order. -/
def listOrder : SetOrder Stg := ⟨fun _ l => l, fun _ _ => .refl _⟩

/-- One order, by kernel evaluation. -/
theorem default_once : buildDefault defaultStages listOrder = .ok defaultSchedule := by
  decide +kernel

/-- **C10.** For every order of adding the seven stages and every enumeration of sets, `build`
succeeds with the default schedule, up to the order inside the element of Pythia and
Cloister. -/
theorem C10_default_schedule (order : List Stg) (horder : order.Perm defaultStages)
    (π : SetOrder Stg) :
    buildDefault order π =
      .ok [[.preprocessing], [.prelim], [.sifted], [.pilot], [.pythia, .cloister], [.trace]] ∨
    buildDefault order π =
      .ok [[.preprocessing], [.prelim], [.sifted], [.pilot], [.cloister, .pythia], [.trace]] := by
  have h := C02_order_irrelevant cpython noRestrictions (order.map addCall)
    (defaultStages.map addCall) (horder.map _) (by
      rw [List.map_map]
      exact (horder.map _).nodup_iff.2 (by decide)) π listOrder (.setObject initial)
    (.setObject initial) (fun _ => Iff.rfl)
  have h' : SameOutcome (buildDefault order π) (buildDefault defaultStages listOrder) := h
  rw [default_once] at h'
  generalize buildDefault order π = r at h'
  cases h' with
  | ok l₁ _ hf =>
    have hone : ∀ (e : List Stg) (s : Stg), e.Perm [s] → e = [s] := fun e s h => List.perm_singleton.1 h
    unfold defaultSchedule at hf
    cases hf with
    | cons h1 hf => cases hf with
      | cons h2 hf => cases hf with
        | cons h3 hf => cases hf with
          | cons h4 hf => cases hf with
            | cons h5 hf => cases hf with
              | cons h6 hf =>
                cases hf
                rw [hone _ _ h1, hone _ _ h2, hone _ _ h3, hone _ _ h4, hone _ _ h6]
                have : ∀ e : List Stg, e.Perm [.pythia, .cloister] →
                    e = [.pythia, .cloister] ∨ e = [.cloister, .pythia] := by
                  intro e he
                  match e, he.length_eq, he with
                  | [a, b], _, he =>
                    have ha := he.mem_iff (a := a)
                    have hb := he.mem_iff (a := b)
                    have hnd := he.nodup_iff.2 (by decide)
                    cases a <;> cases b <;> simp_all
                rcases this _ h5 with rfl | rfl
                · exact .inl rfl
                · exact .inr rfl

/-- An order of adding the stages that is far from the order of the schedule. -/
example : buildDefault [.trace, .cloister, .pythia, .pilot, .sifted, .prelim, .preprocessing]
    listOrder = .ok [[.preprocessing], [.prelim], [.sifted], [.pilot], [.cloister, .pythia], [.trace]] := by
  decide +kernel

/-- Both outcomes occur. -/
example : ∃ order₁ order₂ : List Stg, order₁.Perm defaultStages ∧ order₂.Perm defaultStages ∧
    buildDefault order₁ listOrder ≠ buildDefault order₂ listOrder :=
  ⟨defaultStages, defaultStages.reverse, .refl _, List.reverse_perm _, by decide +kernel⟩

/-! ### C25 -/

/-- The runner of the default pipeline with arbitrary stage implementations. -/
abbrev runner {V E : Type} (order : List Stg) (sched : List (List Stg))
    (run : Nat → Stg → List V → Except E (List (Name × V))) : Pipeline Stg Name V E :=
  pipelineOf (builderOf order) sched run

/-- The fields of a builder depend only on the set of stages added. -/
theorem builderOf_tables (order : List Stg) (horder : order.Perm defaultStages) :
    (builderOf order).stages.Nodup ∧ ∀ s, (builderOf order).ins s = inputs s ∧
      (builderOf order).outs s = outputs s := by
  obtain ⟨h1, h2, h3⟩ := runCalls_perm (rt := cpython) (kind := noRestrictions)
    (horder.map addCall) (by
      rw [List.map_map]
      exact (horder.map _).nodup_iff.2 (by decide))
  refine ⟨(List.Perm.nodup_iff h1).2 (by decide +kernel), fun s => ⟨?_, ?_⟩⟩
  · have := congrFun h2 s
    rw [show (builderOf order).ins = _ from h2]
    cases s <;> decide +kernel
  · rw [show (builderOf order).outs = _ from h3]
    cases s <;> decide +kernel

/-- **C25.** For every order of adding the seven stages, every enumeration of sets and every
implementation of the stages that returns its declared fields: when `run_all` succeeds, after
any history of the runner, every key the Model reads is present and the Model is built. -/
theorem C25_model_keys {V E : Type} (order : List Stg) (horder : order.Perm defaultStages)
    (π : SetOrder Stg) (sched : List (List Stg)) (hs : buildDefault order π = .ok sched)
    (run : Nat → Stg → List V → Except E (List (Name × V)))
    (hrun : ∀ k s vs out, run k s vs = .ok out → ∀ a ∈ outputs s, a.1 ∈ out.map Prod.fst)
    (ops : List (Op Stg Name V)) (args d : Dict Name V)
    (hd : contents (runAll (runner order sched run) (exec (runner order sched run) ops).st args) =
      .ok d) :
    (∀ n ∈ modelKeys, ∃ v, d n = some v) ∧
    ∃ m, modelFrom d = .ok m ∧ modelKeys.map d = m.map some := by
  have hB := (builderOf_tables order horder).1
  have hP : (runner order sched run).Proper := built_proper hB hs run
  obtain ⟨h1, -⟩ := runFrom_apply hP (exec_inv hP.once ops) args sched []
    (by simp [pipelineOf])
  change contents (runFrom _ _ args sched.flatten) = .ok d at hd
  rw [h1] at hd
  have hmem : ∀ s : Stg, s ∈ sched.flatten := by
    rcases C10_default_schedule order horder π with h | h <;> rw [h] at hs <;> cases hs <;>
      (intro s; cases s <;> decide)
  have hkeys : ∀ n ∈ modelKeys, ∃ s : Stg, n ∈ (outputs s).map Prod.fst := by
    intro n hn
    have hd : ∀ n ∈ modelKeys, ∃ s ∈ defaultStages, n ∈ (outputs s).map Prod.fst := by
      decide +kernel
    obtain ⟨s, -, h⟩ := hd n hn
    exact ⟨s, h⟩
  have hall : ∀ n ∈ modelKeys, (d n).isSome := by
    intro n hn
    refine applyAll_present (outs := outputs) sched.flatten args d _ (fun s _ k => hrun k s) hd n ?_
    obtain ⟨s, hs'⟩ := hkeys n hn
    obtain ⟨a, ha, rfl⟩ := List.mem_map.1 hs'
    exact .inr ⟨s, hmem s, a, ha, rfl⟩
  exact ⟨fun n hn => Option.isSome_iff_exists.1 (hall n hn), collect_present d modelKeys hall⟩

/-- Stages that return the number of their execution for every declared field. -/
def countingRun : Nat → Stg → List Nat → Except Unit (List (Name × Nat)) :=
  fun k s _ => .ok ((outputs s).map fun a => (a.1, k))

/-- A dictionary with every initial input. -/
def someArgs : Dict Name Nat := fun n => if n ∈ initial.map Prod.fst then some 100 else none

example : ∀ k s vs out, countingRun k s vs = .ok out → ∀ a ∈ outputs s, a.1 ∈ out.map Prod.fst := by
  intro k s vs out h a ha
  cases h
  simp only [List.map_map, List.mem_map]
  exact ⟨a, ha, rfl⟩

example : (match contents (runAll (runner defaultStages defaultSchedule countingRun)
      State.init someArgs) with
    | .ok d => (modelFrom d).toOption
    | .error _ => none) =
    some ([2, 2, 0] ++ List.replicate 9 2 ++ [2] ++ List.replicate 12 1 ++ List.replicate 6 2 ++
      List.replicate 11 3 ++ [5, 5] ++ List.replicate 17 4 ++ List.replicate 5 6 ++ [2]) := by
  decide +kernel

/-! ### C11 and C18 for the default pipeline -/

/-- The outcome of `build` in terms of the given arguments. -/
theorem build_fst {S A : Type} [DecidableEq S] [DecidableEq A] (rt : Runtime) (kind : A → Kind S)
    (B : Builder S A) (π : SetOrder S) (init : InitArg A) :
    (build rt kind B π init).1 =
      match (resolve rt kind B π init.args).out with
      | .error e => .error e
      | .ok sched =>
        if checkRunnable B (resolve rt kind B π init.args).avail sched then .ok sched
        else .error .stageRunning := by
  unfold build
  simp only
  cases (resolve rt kind B π init.args).out with
  | error e => rfl
  | ok sched =>
    simp only
    cases checkRunnable B (resolve rt kind B π init.args).avail sched <;> rfl

/-- The outcome of `build` is the same for a set and a named tuple. -/
theorem build_namedTuple (order : List Stg) (π : SetOrder Stg) :
    (build cpython noRestrictions (builderOf order) π (.namedTuple initial)).1 =
      buildDefault order π := by
  unfold buildDefault
  rw [build_fst, build_fst]
  rfl

/-- **C11 for the default pipeline.** `run_all` with values for the initial inputs raises only
what a stage raises. -/
theorem C11_default {V E : Type} (order : List Stg) (horder : order.Perm defaultStages)
    (π : SetOrder Stg) (sched : List (List Stg)) (hs : buildDefault order π = .ok sched)
    (run : Nat → Stg → List V → Except E (List (Name × V)))
    (hrun : ∀ k s vs out, run k s vs = .ok out → ∀ a ∈ outputs s, a.1 ∈ out.map Prod.fst)
    (ops : List (Op Stg Name V)) (args : Dict Name V)
    (hargs : ∀ a ∈ initial, ∃ v, args a.1 = some v) (e : RunError Name E)
    (he : (runAll (runner order sched run) (exec (runner order sched run) ops).st args).1 =
      .error e) : ∃ x, e = .stage x := by
  obtain ⟨hB, ht⟩ := builderOf_tables order horder
  refine C11_never_missing noRestrictions (builderOf order) hB π (.setObject initial) sched hs run
    (fun k s vs out h a ha => hrun k s vs out h a ((ht s).2 ▸ ha)) ops args
    (fun a ha => Option.isSome_iff_exists.2 (hargs a ha)) e he

example : ∀ a ∈ initial, ∃ v, someArgs a.1 = some v := by
  intro a ha
  exact ⟨100, if_pos (List.mem_map_of_mem ha)⟩

/-- No name of the default pipeline is declared with two types, so `C11_types_partial` applies
and every stage of the default pipeline receives values of its declared types. -/
theorem C11_default_types {V E : Type} (order : List Stg) (horder : order.Perm defaultStages)
    (π : SetOrder Stg) (hasType : Ty → V → Prop)
    (run : Nat → Stg → List V → Except E (List (Name × V)))
    (hrun : ∀ k s vs out, run k s vs = .ok out →
      List.Forall₂ (fun a v => hasType a.2 v) (inputs s) vs →
      List.Forall₂ (fun a p => p.1 = a.1 ∧ hasType a.2 p.2) (outputs s) out)
    (args : Dict Name V) (hargs : ∀ a ∈ initial, ∃ v, args a.1 = some v ∧ hasType a.2 v)
    (sched : List (List Stg)) (hs : buildDefault order π = .ok sched) :
    ∀ ev ∈ (runAll (runner order sched run) State.init args).2.calls,
      List.Forall₂ (fun a v => hasType a.2 v) (inputs ev.stage) ev.inputs := by
  obtain ⟨hB, ht⟩ := builderOf_tables order horder
  have hu : ∀ a b : Name × Ty, (a ∈ initial ∨ ∃ s, a ∈ outputs s) →
      (b ∈ initial ∨ ∃ s, b ∈ outputs s) → a.1 = b.1 → a.2 = b.2 := by
    have hall : ∀ a ∈ initial ++ defaultStages.flatMap outputs,
        ∀ b ∈ initial ++ defaultStages.flatMap outputs, a.1 = b.1 → a.2 = b.2 := by decide +kernel
    have hin : ∀ a : Name × Ty, (a ∈ initial ∨ ∃ s, a ∈ outputs s) →
        a ∈ initial ++ defaultStages.flatMap outputs := by
      rintro a (h | ⟨s, h⟩)
      · exact List.mem_append_left _ h
      · exact List.mem_append_right _ (List.mem_flatMap.2 ⟨s, by cases s <;> decide, h⟩)
    exact fun a b ha hb => hall a (hin a ha) b (hin b hb)
  have := C11_types_partial noRestrictions (builderOf order) hB π initial hasType run
    (fun k s vs out h hv => (ht s).2 ▸ hrun k s vs out h ((ht s).1 ▸ hv)) args hargs
    (fun a b ha hb => hu a b
      (ha.imp_right fun ⟨s, _, h⟩ => ⟨s, (ht s).2 ▸ h⟩)
      (hb.imp_right fun ⟨s, _, h⟩ => ⟨s, (ht s).2 ▸ h⟩)) sched
    ((build_namedTuple order π).trans hs)
  intro ev hev
  rw [← (ht ev.stage).1]
  exact this ev hev

/-- **C18 for the default pipeline.** The result of `run_all` does not depend on the order in
which Pythia and Cloister run, for deterministic stages that return no undeclared names. -/
theorem C18_default {V E : Type} (order : List Stg) (horder : order.Perm defaultStages)
    (π₁ π₂ : SetOrder Stg) (sched₁ sched₂ : List (List Stg))
    (h₁ : buildDefault order π₁ = .ok sched₁) (h₂ : buildDefault order π₂ = .ok sched₂)
    (run : Nat → Stg → List V → Except E (List (Name × V)))
    (hdet : ∀ k k' s vs, run k s vs = run k' s vs)
    (hdecl : ∀ k s vs out, run k s vs = .ok out →
      ∀ n ∈ out.map Prod.fst, n ∈ (outputs s).map Prod.fst)
    (args d : Dict Name V)
    (hd : contents (runAll (runner order sched₁ run) State.init args) = .ok d) :
    contents (runAll (runner order sched₂ run) State.init args) = .ok d := by
  obtain ⟨hB, ht⟩ := builderOf_tables order horder
  have hall : ∀ s ∈ defaultStages, ∀ t ∈ defaultStages, ∀ a ∈ outputs s, ∀ b ∈ outputs t,
      a.1 = b.1 → a.2 = b.2 := by decide +kernel
  refine C18_partial noRestrictions (builderOf order) hB initial run hdet ?_ ?_ π₁ π₂ sched₁ sched₂
    ((build_namedTuple order π₁).trans h₁) ((build_namedTuple order π₂).trans h₂) ?_ args d hd
  · intro k s vs out h n hn
    obtain ⟨a, ha, hn'⟩ := List.mem_map.1 (hdecl k s vs out h n hn)
    exact ⟨a, (ht s).2 ▸ ha, hn'⟩
  · intro s _ t _ a ha b hb
    exact hall s (by cases s <;> decide) t (by cases t <;> decide) a ((ht s).2 ▸ ha) b
      ((ht t).2 ▸ hb)
  · intro e he s hs t ht' hne
    rw [(ht s).2, (ht t).1]
    have hx : ∀ e ∈ defaultSchedule, ∀ s ∈ e, ∀ t ∈ e, s ≠ t → ∀ a ∈ outputs s, ∀ b ∈ inputs t,
        a.1 ≠ b.1 := by decide +kernel
    rcases C10_default_schedule order horder π₁ with h | h <;> rw [h] at h₁ <;> cases h₁
    · exact hx e he s hs t ht' hne
    · have hx' : ∀ e ∈ [[Stg.preprocessing], [.prelim], [.sifted], [.pilot], [.cloister, .pythia],
          [.trace]], ∀ s ∈ e, ∀ t ∈ e, s ≠ t → ∀ a ∈ outputs s, ∀ b ∈ inputs t, a.1 ≠ b.1 := by
        decide +kernel
      exact hx' e he s hs t ht' hne

/-- Deterministic stages: every field is the sum of the inputs plus one. -/
def sumRun : Nat → Stg → List Nat → Except Unit (List (Name × Nat)) :=
  fun _ s vs => .ok ((outputs s).map fun a => (a.1, vs.sum + 1))

example : (∀ k k' s vs, sumRun k s vs = sumRun k' s vs) ∧
    (∀ k s vs out, sumRun k s vs = .ok out →
      ∀ n ∈ out.map Prod.fst, n ∈ (outputs s).map Prod.fst) ∧
    (contents (runAll (runner defaultStages defaultSchedule sumRun) State.init someArgs)).toOption.isSome := by
  refine ⟨fun _ _ _ _ => rfl, ?_, by decide +kernel⟩
  intro k s vs out h n hn
  cases h
  simpa using hn

end Verif.Pipeline
