import Verif.InstanceSpace.Lemmas
import Verif.Pipeline.Props
/-!
# Properties C22 - C24 of `InstanceSpace`
-/
set_option autoImplicit false
set_option linter.unusedSectionVars false

namespace Verif.InstanceSpace

open Verif.Runner

variable {S N V E : Type} [DecidableEq S] [DecidableEq N]

/-- `m` is the Model of the dictionary `d`: it holds the value of every key. -/
def IsModelOf (keys : List N) (d : Dict N V) (m : List V) : Prop := keys.map d = m.map some

/-- In the history some call of `build` finished running all stages. -/
def Built (P : Pipeline S N V E) (keys : List N) (args : Dict N V) (calls : List (Call S N V)) :
    Prop :=
  ∃ before after, calls = before ++ .build :: after ∧
    ∃ ref, (runAll P (history P keys args before).world.st args).1 = .ok ref

/-! ### A concrete pipeline

Stage 0 adds the number of executions so far to its input 10 and outputs 11; stage 1 doubles 11
into 12. The Model reads 11 and 12. -/

def demo : Pipeline Nat Nat Int String where
  order := [[0], [1]]
  fields := fun s => match s with | 0 => [10] | 1 => [11] | _ => []
  run := fun k s vs => match s, vs with
    | 0, [v] => if v < 0 then .error "negative" else .ok [(11, v + k)]
    | 1, [v] => .ok [(12, 2 * v)]
    | _, _ => .error "arity"

def demoKeys : List Nat := [11, 12]

def demoArgs : Dict Nat Int := fun n => if n = 10 then some 5 else none

theorem demo_proper : demo.Proper := ⟨by decide, by decide⟩

/-! ### C22 -/

/-- The second half of the claim: once every stage has been run successfully, the model can be
read. -/
def AvailableAfterRun (P : Pipeline S N V E) (keys : List N) (args : Dict N V) : Prop :=
  ∀ calls, (∀ s ∈ P.order.flatten, Succeeded (history P keys args calls).world.st.calls s) →
    ∃ m, (readModel keys (history P keys args calls)).1 = .ok m

/-- **C22 is false of the code**: running all stages through `run_iter` does not make the model
available. -/
theorem C22_refuted : ¬ AvailableAfterRun demo demoKeys demoArgs := by
  intro h
  obtain ⟨m, hm⟩ := h [.newIter, .next 0, .next 0, .next 0] (by
    intro s hs
    have : s = 0 ∨ s = 1 := by simpa [demo] using hs
    rcases this with rfl | rfl
    · exact ⟨⟨0, [5], .ok [(11, 5)]⟩, List.mem_of_getElem? (i := 0) rfl, rfl, _, rfl⟩
    · exact ⟨⟨1, [5], .ok [(12, 10)]⟩, List.mem_of_getElem? (i := 1) rfl, rfl, _, rfl⟩)
  cases hm

/-- **C22, true part.** After any history, reading the model raises `StageRunningError` exactly
when no call of `build` finished running all stages.  Missing: stages run by other calls do not
count. -/
theorem C22_partial (P : Pipeline S N V E) (keys : List N) (args : Dict N V)
    (calls : List (Call S N V)) :
    (readModel keys (history P keys args calls)).1 = .error .notBuilt ↔
      ¬ Built P keys args calls := by
  have hfinal : (history P keys args calls).final = none ↔ ¬ Built P keys args calls := by
    induction calls using List.reverseRecOn with
    | nil =>
      refine ⟨fun _ => ?_, fun _ => rfl⟩
      rintro ⟨before, after, h, -⟩
      simp at h
    | append_singleton cs c ih =>
      have hmono : Built P keys args cs → Built P keys args (cs ++ [c]) := by
        rintro ⟨b, a, rfl, h⟩
        exact ⟨b, a ++ [c], by simp, h⟩
      have hback : Built P keys args (cs ++ [c]) → Built P keys args cs ∨
          (c = .build ∧ ∃ ref, (runAll P (history P keys args cs).world.st args).1 = .ok ref) := by
        rintro ⟨b, a, h, hr⟩
        induction a using List.reverseRecOn with
        | nil =>
          obtain ⟨rfl, hc⟩ := List.append_inj' h rfl
          cases hc
          exact .inr ⟨rfl, hr⟩
        | append_singleton a x _ =>
          rw [← List.cons_append, ← List.append_assoc] at h
          obtain ⟨rfl, -⟩ := List.append_inj' h rfl
          exact .inl ⟨b, a, rfl, hr⟩
      rw [history_snoc, stepCall_final]
      cases c with
      | build =>
        simp only
        cases hr : (runAll P (history P keys args cs).world.st args).1 with
        | ok ref =>
          simp only [reduceCtorEq, false_iff, not_not]
          exact ⟨cs, [], rfl, ref, hr⟩
        | error e =>
          simp only
          rw [ih]
          refine ⟨fun h hb => ?_, fun h hb => h (hmono hb)⟩
          rcases hback hb with hb | ⟨-, ref, hb⟩
          · exact h hb
          · rw [hr] at hb; cases hb
      | model => exact ih.trans ⟨fun h hb => (hback hb).elim h (by simp), fun h hb => h (hmono hb)⟩
      | runStage s kw =>
        exact ih.trans ⟨fun h hb => (hback hb).elim h (by simp), fun h hb => h (hmono hb)⟩
      | runUntil s =>
        exact ih.trans ⟨fun h hb => (hback hb).elim h (by simp), fun h hb => h (hmono hb)⟩
      | newIter =>
        exact ih.trans ⟨fun h hb => (hback hb).elim h (by simp), fun h hb => h (hmono hb)⟩
      | next k =>
        exact ih.trans ⟨fun h hb => (hback hb).elim h (by simp), fun h hb => h (hmono hb)⟩
  rw [← hfinal]
  constructor
  · intro h
    unfold readModel at h
    split at h
    · cases h
    · split at h
      · assumption
      · split at h <;> cases h
  · intro h
    unfold readModel
    rw [history_model_final P keys args calls h]
    simp only [h]

example : (readModel demoKeys (history demo demoKeys demoArgs [.runUntil 1, .runStage 1 []])).1 =
    .error .notBuilt := rfl
example : (readModel demoKeys (history demo demoKeys demoArgs [.runUntil 1, .build, .runStage 0 []])).1 =
    .ok [6, 12] := rfl

/-- **C22, availability.** When a successful run always provides the keys, as in the default
pipeline (C25), the model can be read after a history with a successful `build`. -/
theorem C22_available_partial (P : Pipeline S N V E) (hP : P.Proper) (keys : List N)
    (args : Dict N V)
    (hkeys : ∀ k d, applyAll P k P.order.flatten args = .ok d → ∀ n ∈ keys, ∃ v, d n = some v)
    (calls : List (Call S N V)) (hb : Built P keys args calls) :
    ∃ m, (readModel keys (history P keys args calls)).1 = .ok m := by
  obtain ⟨before, after, rfl, ref, href⟩ := hb
  have hone : ∃ m, (history P keys args (before ++ [.build])).model = some m := by
    obtain ⟨m, -, hm⟩ := build_ok P hP keys args hkeys before ref href
    rw [history_snoc]
    exact ⟨m, hm⟩
  obtain ⟨m, hm⟩ := hone
  have hall : ∀ after : List (Call S N V),
      (history P keys args ((before ++ [.build]) ++ after)).model = some m := by
    intro after
    induction after using List.reverseRecOn with
    | nil => simpa using hm
    | append_singleton cs c ih =>
      rw [← List.append_assoc, history_snoc]
      exact stepCall_model_some P keys args _ c m ih
  have := hall after
  simp only [List.append_assoc, List.singleton_append] at this
  exact ⟨m, by unfold readModel; rw [this]⟩

example : ∀ k d, applyAll demo k demo.order.flatten demoArgs = .ok d →
    ∀ n ∈ demoKeys, ∃ v, d n = some v := by
  intro k d h n hn
  cases h
  have : n = 11 ∨ n = 12 := by simpa [demoKeys] using hn
  rcases this with rfl | rfl
  · exact ⟨5 + k, rfl⟩
  · exact ⟨2 * (5 + k), rfl⟩

/-! ### C23 -/

/-- The claim: whenever `build` returns a model, it is the model of the dictionary its own run of
all stages produced. -/
def BuildIsCurrent (P : Pipeline S N V E) (keys : List N) (args : Dict N V) : Prop :=
  ∀ calls m, (build P keys args (history P keys args calls)).1 = .ok m →
    ∃ d, contents (runAll P (history P keys args calls).world.st args) = .ok d ∧ IsModelOf keys d m

/-- **C23 is false of the code**: the second `build` returns the first model although its own
run computed other values. -/
theorem C23_refuted : ¬ BuildIsCurrent demo demoKeys demoArgs := by
  intro h
  obtain ⟨d, hd, hm⟩ := h [.build] [5, 10] rfl
  have h1 : d 11 = some 7 := by
    cases hd
    rfl
  simp only [IsModelOf, demoKeys, List.map_cons, List.map_nil, h1] at hm
  exact absurd hm (by simp)

/-- **C23, true part.** It holds for a `build` before which no other `build` finished running
all stages.  Missing: later calls, which return the cached model. -/
theorem C23_partial (P : Pipeline S N V E) (keys : List N) (args : Dict N V)
    (calls : List (Call S N V)) (hfirst : ¬ Built P keys args calls) (m : List V)
    (h : (build P keys args (history P keys args calls)).1 = .ok m) :
    ∃ d, contents (runAll P (history P keys args calls).world.st args) = .ok d ∧
      IsModelOf keys d m := by
  have hnone : (history P keys args calls).model = none := by
    have := (C22_partial P keys args calls).2 hfirst
    unfold readModel at this
    split at this
    · cases this
    · assumption
  unfold build at h
  simp only at h
  unfold contents
  cases hr : (runAll P (history P keys args calls).world.st args).1 with
  | error e => rw [hr] at h; cases h
  | ok ref =>
    rw [hr] at h
    simp only [readModel, hnone] at h
    refine ⟨_, rfl, ?_⟩
    revert h
    generalize (runAll P (history P keys args calls).world.st args).2.heap ref = d
    intro h
    cases hc : collect d keys with
    | error n => rw [hc] at h; cases h
    | ok vs =>
      rw [hc] at h
      cases h
      clear hfirst hnone hr
      unfold IsModelOf
      induction keys generalizing m with
      | nil => cases hc; rfl
      | cons n ns ih =>
        unfold collect at hc
        split at hc
        · cases hc
        · rename_i v hv
          split at hc
          · cases hc
          · rename_i vs hvs
            cases hc
            simp [hv, ih vs hvs]

example : ¬ Built demo demoKeys demoArgs [.runUntil 1, .model] := by
  rw [← C22_partial]
  rfl
example : (build demo demoKeys demoArgs (history demo demoKeys demoArgs [.runUntil 1, .model])).1 =
    .ok [6, 12] := rfl

/-- **C23 for stages that do not change between calls.** If moreover a successful run always
provides the keys, every `build` that returns a model returns the model of its own run. -/
theorem C23_deterministic_partial (P : Pipeline S N V E) (hP : P.Proper) (hdet : P.Deterministic)
    (keys : List N) (args : Dict N V)
    (hkeys : ∀ k d, applyAll P k P.order.flatten args = .ok d → ∀ n ∈ keys, ∃ v, d n = some v) :
    BuildIsCurrent P keys args := by
  intro calls m h
  by_cases hb : Built P keys args calls
  · -- the first successful build decides the model
    have hfirst : ∃ before after, calls = before ++ .build :: after ∧ ¬ Built P keys args before ∧
        ∃ ref, (runAll P (history P keys args before).world.st args).1 = .ok ref := by
      clear h
      induction calls using List.reverseRecOn with
      | nil => obtain ⟨b, a, h, -⟩ := hb; simp at h
      | append_singleton cs c ih =>
        by_cases hcs : Built P keys args cs
        · obtain ⟨b, a, rfl, h⟩ := ih hcs
          exact ⟨b, a ++ [c], by simp, h⟩
        · obtain ⟨b, a, h, hr⟩ := hb
          induction a using List.reverseRecOn with
          | nil =>
            obtain ⟨rfl, hc⟩ := List.append_inj' h rfl
            cases hc
            exact ⟨cs, [], rfl, hcs, hr⟩
          | append_singleton a x _ =>
            rw [← List.cons_append, ← List.append_assoc] at h
            obtain ⟨rfl, -⟩ := List.append_inj' h rfl
            exact absurd ⟨b, a, rfl, hr⟩ hcs
    obtain ⟨before, after, rfl, hnb, ref, href⟩ := hfirst
    have hval : ∀ cs : List (Call S N V), contents (runAll P (history P keys args cs).world.st args) =
        applyAll P 0 P.order.flatten args := by
      intro cs
      rw [history_world]
      have := (runFrom_apply hP (exec_inv hP.once (ops args cs)) args P.order [] (by simp)).1
      exact this.trans (applyAll_congr hdet _ _ _ _)
    obtain ⟨m', hm', hcached⟩ := build_ok P hP keys args hkeys before ref href
    obtain ⟨d, hd, hmd⟩ := C23_partial P keys args before hnb m' hm'
    have hall : ∀ after : List (Call S N V),
        (history P keys args ((before ++ [.build]) ++ after)).model = some m' := by
      intro after
      induction after using List.reverseRecOn with
      | nil => rw [List.append_nil, history_snoc]; exact hcached
      | append_singleton cs c ih =>
        rw [← List.append_assoc, history_snoc]
        exact stepCall_model_some P keys args _ c m' ih
    have hc := hall after
    simp only [List.append_assoc, List.singleton_append] at hc
    have hmm : m = m' := by
      unfold build at h
      simp only at h
      split at h
      · cases h
      · simp only [readModel, hc] at h
        cases h; rfl
    subst hmm
    exact ⟨d, (hval _).trans ((hval before).symm.trans hd), hmd⟩
  · exact C23_partial P keys args calls hb m h

/-- A pipeline to which it applies. -/
def still : Pipeline Nat Nat Int String := { demo with run := fun _ => demo.run 0 }

example : still.Proper ∧ still.Deterministic := ⟨⟨by decide, by decide⟩, fun _ _ _ _ => rfl⟩
example : (build still demoKeys demoArgs (history still demoKeys demoArgs [.build, .runStage 0 []])).1 =
    .ok [5, 10] := rfl

/-! ### C24 -/

open Verif.Builder in
/-- The claim: for a pipeline that the builder accepts with additional initial inputs `extra`, if
no stage ever raises, then `InstanceSpace.build`, which has values for the fields `base` of
`_InstanceSpaceInputs`, runs all stages. -/
def AdditionalInputsReach {T : Type} [DecidableEq T] (B : Builder S (N × T))
    (base extra : List (N × T)) (run : Nat → S → List V → Except E (List (N × V))) : Prop :=
  ∀ (π : SetOrder S) (sched : List (List S)),
    (Builder.build cpython (fun _ => .plain) B π (.setObject (base ++ extra))).1 = .ok sched →
    (∀ k s vs, ∃ out, run k s vs = .ok out) →
    ∀ args : Dict N V, (∀ n, (args n).isSome ↔ n ∈ base.map Prod.fst) →
      ∃ ref, (runAll (pipelineOf B sched run) State.init args).1 = .ok ref

/-- A plugin stage that reads the field 1 (of `_InstanceSpaceInputs`) and the additional field 2. -/
def plugin : Builder.Builder Nat (Nat × Unit) where
  stages := [0]
  ins := fun s => match s with | 0 => [(1, ()), (2, ())] | _ => []
  outs := fun s => match s with | 0 => [(3, ())] | _ => []

/-- **C24 is false of the code** for this plugin. -/
theorem C24_refuted : ¬ AdditionalInputsReach plugin [(1, ())] [(2, ())]
    (fun _ _ vs => (.ok [(3, vs.sum)] : Except Unit (List (Nat × Nat)))) := by
  intro h
  obtain ⟨ref, href⟩ := h Builder.idOrder [[0]] rfl (fun _ _ _ => ⟨_, rfl⟩)
    (fun n => if n = 1 then some 50 else none) (by
      intro n
      by_cases hn : n = 1 <;> simp [hn])
  cases href

/-- **C24 fails for every plugin**: if some stage takes an argument that is not a field of
`_InstanceSpaceInputs` and that no stage outputs, then `build` never returns a model of its run:
whatever was called before, running all stages raises. -/
theorem C24_never_refuted (P : Pipeline S N V E) (hP : P.Proper) (keys : List N) (args : Dict N V)
    (s : S) (hs : s ∈ P.order.flatten) (n : N) (hn : n ∈ P.fields s) (hbase : args n = none)
    (hw : ∀ t ∈ P.order.flatten, ¬ Writes P t n) (calls : List (Call S N V)) :
    ∃ e, (build P keys args (history P keys args calls)).1 = .error (.run e) := by
  have hc := (runFrom_apply hP (exec_inv hP.once (ops args calls)) args P.order [] (by simp)).1
  rw [← history_world P keys args calls] at hc
  change contents (runAll P _ args) = _ at hc
  cases hr : (runAll P (history P keys args calls).world.st args).1 with
  | error e => exact ⟨e, by simp only [build, hr]⟩
  | ok ref =>
    unfold contents at hc
    rw [hr] at hc
    exact absurd hc.symm (applyAll_needs hn _ _ _ _ hw hbase hs)

/-- The plugin as a pipeline. -/
def pluginPipeline : Pipeline Nat Nat Nat Unit :=
  pipelineOf plugin [[0]] fun _ _ vs => .ok [(3, vs.sum)]

example : pluginPipeline.Proper := ⟨by decide, by decide⟩
example : ∀ t ∈ pluginPipeline.order.flatten, ¬ Writes pluginPipeline t 2 := by
  rintro t - ⟨k, vs, out, h, hm⟩
  cases h
  simp at hm

/-- **C24, what works.** A value given to `run_stage` as a keyword argument reaches the stage:
when a stage can run, it receives for each of its fields the keyword argument if there is one and
the available value otherwise.  Missing: `build`, `run_iter` and `run_until_stage`. -/
theorem C24_partial (P : Pipeline S N V E) (hP : P.Proper) (keys : List N) (args : Dict N V)
    (calls : List (Call S N V)) (s : S) (kw : List (N × V))
    (out : List (N × V))
    (h : (runStage P (history P keys args calls).world.st s kw).1 = .ok out) :
    ∃ received, (runStage P (history P keys args calls).world.st s kw).2.calls =
        (history P keys args calls).world.st.calls ++ [⟨s, received, .ok out⟩] ∧
      List.Forall₂ (fun n v => (n, v) ∈ kw ∨ (n ∉ kw.map Prod.fst ∧
        (history P keys args calls).world.st.args n = some v)) (P.fields s) received := by
  have hI := exec_inv hP.once (ops args calls)
  rw [← history_world P keys args calls] at hI
  revert h
  generalize (history P keys args calls).world.st = st at hI
  intro h
  have ho := runStage_outcome hP.once hI s kw
  generalize hr : runStage P st s kw = r at ho h
  cases ho with
  | unknown => cases h
  | early => cases h
  | missing => cases h
  | raised => cases h
  | ok i e he hs hi hn out' hrun st' hx =>
    cases h
    refine ⟨_, hx.calls, ?_⟩
    rw [List.find?_eq_none] at hn
    have hov : ∀ n, (n ∉ kw.map Prod.fst ∧ override st.args kw n = st.args n) ∨
        ∃ v, (n, v) ∈ kw ∧ override st.args kw n = some v := by
      intro n
      by_cases hm : n ∈ kw.map Prod.fst
      · exact .inr (override_of_mem hm)
      · exact .inl ⟨hm, override_of_not_mem hm⟩
    clear he hs hi hrun hx hr
    generalize P.fields s = fs at hn
    induction fs with
    | nil => exact .nil
    | cons n ns ih =>
      have hsome : (override st.args kw n).isSome := by
        have := hn n List.mem_cons_self
        cases hx : override st.args kw n <;> simp_all
      obtain ⟨v, hv⟩ := Option.isSome_iff_exists.1 hsome
      rw [List.filterMap_cons, hv]
      refine .cons ?_ (ih fun m hm => hn m (List.mem_cons_of_mem _ hm))
      rcases hov n with ⟨h1, h2⟩ | ⟨w, h1, h2⟩
      · exact .inr ⟨h1, h2 ▸ hv⟩
      · rw [h2] at hv; cases hv; exact .inl h1

example : (runStage pluginPipeline (history pluginPipeline [3] (fun _ => none) [.build]).world.st 0
    [(1, 50), (2, 7)]).1 = .ok [(3, 57)] := rfl

end Verif.InstanceSpace
