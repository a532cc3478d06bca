import Verif.Runner.BuiltLemmas
/-!
# Properties C11 and C18: runs of built pipelines

Arguments are pairs of a name and a type, as `_StageArgument` (stage_builder.py:22-27).
-/
set_option autoImplicit false
set_option linter.unusedSectionVars false

namespace Verif.Runner

open Verif.Builder

variable {S N V E T : Type} [DecidableEq S] [DecidableEq N] [DecidableEq T]

/-- The runner made by `build` (stage_builder.py:146-151) with stages of the given behaviour.
The runner looks inputs up by name only (stage_runner.py:144-150). -/
def pipelineOf (B : Builder S (N × T)) (sched : List (List S))
    (run : Nat → S → List V → Except E (List (N × V))) : Pipeline S N V E where
  order := sched
  fields := fun s => (B.ins s).map Prod.fst
  run := run

/-- Built pipelines have proper schedules. -/
theorem built_proper {kind : N × T → Kind S} {B : Builder S (N × T)} (hB : B.stages.Nodup)
    {π : SetOrder S} {init : InitArg (N × T)} {sched : List (List S)}
    (h : (build cpython kind B π init).1 = .ok sched)
    (run : Nat → S → List V → Except E (List (N × V))) : (pipelineOf B sched run).Proper :=
  have hv := C01_schedule_valid kind B hB π init sched h
  ⟨hv.once, hv.nonempty⟩

/-- A stage implementation returns a value for every declared output. -/
def ReturnsDeclared (B : Builder S (N × T))
    (run : Nat → S → List V → Except E (List (N × V))) : Prop :=
  ∀ k s vs out, run k s vs = .ok out → ∀ a ∈ B.outs s, a.1 ∈ out.map Prod.fst

/-! ### C11 -/

/-- **C11, presence.** On a built runner, after any history, `run_all` with values for all
initial inputs raises only what a stage raises: never for a missing argument, never because
of the order. -/
theorem C11_never_missing (kind : N × T → Kind S) (B : Builder S (N × T)) (hB : B.stages.Nodup)
    (π : SetOrder S) (init : InitArg (N × T)) (sched : List (List S))
    (h : (build cpython kind B π init).1 = .ok sched)
    (run : Nat → S → List V → Except E (List (N × V))) (hrun : ReturnsDeclared B run)
    (ops : List (Op S N V)) (args : Dict N V) (hargs : ∀ a ∈ init.args, (args a.1).isSome)
    (e : RunError N E)
    (he : (runAll (pipelineOf B sched run) (exec (pipelineOf B sched run) ops).st args).1 = .error e) :
    ∃ x, e = .stage x := by
  have hP := built_proper hB h run
  have hv := C01_schedule_valid kind B hB π init sched h
  obtain ⟨h1, -⟩ := runFrom_apply hP (exec_inv hP.once ops) args sched []
    (by simp [pipelineOf])
  change (runFrom _ _ args sched.flatten).1 = .error e at he
  unfold contents at h1
  rw [he] at h1
  replace h1 := h1.symm
  simp only at h1
  have hnm := applyAll_not_missing (P := pipelineOf B sched run) (ins := B.ins) (outs := B.outs)
    (fun _ => rfl) sched.flatten init.args args
    (exec (pipelineOf B sched run) ops).st.calls.length (flatten_runnable sched hv.inputs)
    (fun s _ k => hrun k s) hargs
  have hother : (∃ n, e = .missingArgument n) ∨ ∃ x, e = .stage x := by
    revert h1
    generalize (exec (pipelineOf B sched run) ops).st.calls.length = k
    generalize sched.flatten = l
    clear hargs hnm he
    induction l generalizing k args with
    | nil => intro h1; cases h1
    | cons s ss ih =>
      intro h1
      unfold applyAll at h1
      cases ha : applyStage (pipelineOf B sched run) k s args with
      | ok d' => rw [ha] at h1; exact ih _ _ h1
      | error e' =>
        rw [ha] at h1
        cases h1
        unfold applyStage at ha
        split at ha
        · cases ha; exact .inl ⟨_, rfl⟩
        · split at ha
          · cases ha; exact .inr ⟨_, rfl⟩
          · cases ha
  rcases hother with ⟨n, rfl⟩ | h
  · exact absurd h1 (hnm n)
  · exact h

/-- The typing claim: in a run on a new runner with well typed initial values and stages that
return well typed outputs, every stage receives values of its declared types. -/
def InputsTyped (kind : N × T → Kind S) (B : Builder S (N × T)) (π : SetOrder S)
    (init : List (N × T)) (hasType : T → V → Prop)
    (run : Nat → S → List V → Except E (List (N × V))) (args : Dict N V) : Prop :=
  ∀ sched, (build cpython kind B π (.namedTuple init)).1 = .ok sched →
    ∀ ev ∈ (runAll (pipelineOf B sched run) State.init args).2.calls,
      List.Forall₂ (fun a v => hasType a.2 v) (B.ins ev.stage) ev.inputs

/-- The stages return exactly their declared outputs, with values of the declared types. -/
def ReturnsTyped (B : Builder S (N × T)) (hasType : T → V → Prop)
    (run : Nat → S → List V → Except E (List (N × V))) : Prop :=
  ∀ k s vs out, run k s vs = .ok out →
    List.Forall₂ (fun a v => hasType a.2 v) (B.ins s) vs →
    List.Forall₂ (fun a p => p.1 = a.1 ∧ hasType a.2 p.2) (B.outs s) out

/-- Name 0 exists with type `true` (initial) and `false` (output of stage 0). -/
def twoTypes : Builder Nat (Nat × Bool) where
  stages := [0, 1]
  ins := fun s => match s with | 0 => [(5, true)] | 1 => [(0, true), (1, true)] | _ => []
  outs := fun s => match s with | 0 => [(0, false), (1, true)] | 1 => [(2, true)] | _ => []

/-- Values are tagged with their type; stage 0 returns a `false` value under name 0. -/
def twoTypesRun : Nat → Nat → List (Bool × Int) → Except Unit (List (Nat × (Bool × Int))) :=
  fun _ s _ => match s with
    | 0 => .ok [(0, (false, 7)), (1, (true, 8))]
    | 1 => .ok [(2, (true, 9))]
    | _ => .ok []

/-- **C11, types: false of the code** when one name is used with two types: the builder
accepts the pipeline, and stage 1, which declares type `true` for name 0, receives a value of
type `false`. -/
theorem C11_types_refuted :
    ReturnsTyped twoTypes (fun t v => v.1 = t) twoTypesRun ∧
    ¬ InputsTyped (fun _ => .plain) twoTypes Builder.idOrder [(0, true), (5, true)]
      (fun t v => v.1 = t) twoTypesRun (fun n => if n = 0 ∨ n = 5 then some (true, 3) else none) := by
  constructor
  · intro k s vs out h _
    match s, h with
    | 0, h => cases h; exact .cons ⟨rfl, rfl⟩ (.cons ⟨rfl, rfl⟩ .nil)
    | 1, h => cases h; exact .cons ⟨rfl, rfl⟩ .nil
    | s + 2, h => cases h; exact .nil
  · intro h
    have := h [[0], [1]] rfl ⟨1, [(false, 7), (true, 8)], .ok [(2, (true, 9))]⟩
      (List.mem_of_getElem? (i := 1) rfl)
    cases this with
    | cons h _ => cases h

/-- **C11, types, true part.** Every input has its declared type when no name is declared
with two different types.  Missing: names with several types. -/
theorem C11_types_partial (kind : N × T → Kind S) (B : Builder S (N × T)) (hB : B.stages.Nodup)
    (π : SetOrder S) (init : List (N × T)) (hasType : T → V → Prop)
    (run : Nat → S → List V → Except E (List (N × V))) (hrun : ReturnsTyped B hasType run)
    (args : Dict N V) (hargs : ∀ a ∈ init, ∃ v, args a.1 = some v ∧ hasType a.2 v)
    (huniq : ∀ a b, (a ∈ init ∨ ∃ s ∈ B.stages, a ∈ B.outs s) →
      (b ∈ init ∨ ∃ s ∈ B.stages, b ∈ B.outs s) → a.1 = b.1 → a.2 = b.2) :
    InputsTyped kind B π init hasType run args := by
  intro sched h
  have hP := built_proper hB h run
  have hv := C01_schedule_valid kind B hB π _ sched h
  obtain ⟨-, h2, -⟩ := runFrom_apply hP (Inv.init _) args sched [] (by simp [pipelineOf])
  intro ev hev
  change ev ∈ (runFrom _ _ args sched.flatten).2.calls at hev
  rw [h2] at hev
  simp only [State.init, List.nil_append] at hev
  have hmem : ∀ a, a ∈ init ++ sched.flatten.flatMap B.outs →
      (a ∈ init ∨ ∃ s ∈ B.stages, a ∈ B.outs s) := by
    intro a ha
    rcases List.mem_append.1 ha with h | h
    · exact .inl h
    · obtain ⟨s, hs, has⟩ := List.mem_flatMap.1 h
      obtain ⟨f, hf, hsf⟩ := List.mem_flatten.1 hs
      obtain ⟨i, hi⟩ := List.getElem?_of_mem hf
      exact .inr ⟨s, (hv.complete s).2 ⟨i, f, hi, hsf⟩, has⟩
  exact applyEvents_typed (P := pipelineOf B sched run) (ins := B.ins) (outs := B.outs) hasType
    (fun _ => rfl) sched.flatten init args _ (flatten_runnable sched hv.inputs)
    (fun s _ k => hrun k s)
    (fun a ha b hb => huniq a b (hmem a ha) (hmem b hb)) hargs ev hev

/-- A pipeline with unique types: stage 0 maps 0 to 1, stage 1 maps 0 and 1 to 2. -/
def oneType : Builder Nat (Nat × Bool) where
  stages := [0, 1]
  ins := fun s => match s with | 0 => [(0, true)] | 1 => [(0, true), (1, false)] | _ => []
  outs := fun s => match s with | 0 => [(1, false)] | 1 => [(2, true)] | _ => []

def oneTypeRun : Nat → Nat → List (Bool × Int) → Except Unit (List (Nat × (Bool × Int))) :=
  fun _ s vs => match s, vs with
    | 0, [v] => .ok [(1, (false, v.2 + 1))]
    | 1, [v, w] => .ok [(2, (true, v.2 * w.2))]
    | _, _ => .error ()

example : (build cpython (fun _ => .plain) oneType Builder.idOrder (.namedTuple [(0, true)])).1 =
    .ok [[0], [1]] := rfl
example : ∀ a b, (a ∈ [((0 : Nat), true)] ∨ ∃ s ∈ oneType.stages, a ∈ oneType.outs s) →
    (b ∈ [((0 : Nat), true)] ∨ ∃ s ∈ oneType.stages, b ∈ oneType.outs s) → a.1 = b.1 →
    a.2 = b.2 := by
  intro a b ha hb
  simp only [oneType, List.mem_cons, List.not_mem_nil, or_false, exists_eq_or_imp,
    exists_eq_left] at ha hb
  rcases ha with rfl | rfl | rfl <;> rcases hb with rfl | rfl | rfl <;> simp
example : ((runAll (pipelineOf oneType [[0], [1]] oneTypeRun) .init
    (fun n => if n = 0 then some (true, 3) else none)).2.calls.map Event.inputs) =
    [[(true, 3)], [(true, 3), (false, 4)]] := rfl

/-! ### C18 -/

/-- The claim: for schedules of the same builder that differ only in the order inside the
elements, a run that succeeds gives the same dictionary. -/
def InnerOrderIrrelevant (kind : N × T → Kind S) (B : Builder S (N × T)) (init : List (N × T))
    (run : Nat → S → List V → Except E (List (N × V))) (args : Dict N V) : Prop :=
  ∀ (π₁ π₂ : SetOrder S) sched₁ sched₂,
    (build cpython kind B π₁ (.namedTuple init)).1 = .ok sched₁ →
    (build cpython kind B π₂ (.namedTuple init)).1 = .ok sched₂ →
    ∀ d, contents (runAll (pipelineOf B sched₁ run) State.init args) = .ok d →
      contents (runAll (pipelineOf B sched₂ run) State.init args) = .ok d

/-- An enumeration of sets that lists stage 1 first. -/
def oneFirst : SetOrder Nat where
  order := fun _ l => if 1 ∈ l then 1 :: l.erase 1 else l
  perm := by
    intro _ l
    by_cases h : 1 ∈ l
    · rw [if_pos h]
      exact (List.perm_cons_erase h).symm
    · rw [if_neg h]

/-- Stage 0 reads 0; stage 1 overwrites 0 without reading it. -/
def overwriter : Builder Nat (Nat × Unit) where
  stages := [0, 1]
  ins := fun s => match s with | 0 => [(0, ())] | 1 => [(1, ())] | _ => []
  outs := fun s => match s with | 0 => [(2, ())] | 1 => [(0, ())] | _ => []

def overwriterRun : Nat → Nat → List Int → Except Unit (List (Nat × Int)) :=
  fun _ s vs => match s, vs with
    | 0, [v] => .ok [(2, v)]
    | 1, [v] => .ok [(0, v + 100)]
    | _, _ => .error ()

/-- **C18 is false of the code**: a stage that overwrites an argument without reading it may
share an element with a reader of that argument. -/
theorem C18_refuted : ¬ InnerOrderIrrelevant (fun _ => .plain) overwriter [(0, ()), (1, ())]
    overwriterRun (fun n => if n ≤ 1 then some n else none) := by
  intro h
  have := h Builder.idOrder oneFirst [[0, 1]] [[1, 0]] rfl rfl _ rfl
  have := congrArg (fun r : Except (RunError Nat Unit) (Dict Nat Int) =>
    match r with | .ok d => d 2 | .error _ => none) this
  revert this
  decide

/-- **C18, true part.** It holds when no stage reads an output of another stage of its
element and no name has two types.  Missing: overwriting stages beside readers. -/
theorem C18_partial (kind : N × T → Kind S) (B : Builder S (N × T)) (hB : B.stages.Nodup)
    (init : List (N × T)) (run : Nat → S → List V → Except E (List (N × V)))
    (hdet : ∀ k k' s vs, run k s vs = run k' s vs)
    (hdecl : ∀ k s vs out, run k s vs = .ok out → ∀ n ∈ out.map Prod.fst, ∃ a ∈ B.outs s, a.1 = n)
    (huniq : ∀ s ∈ B.stages, ∀ t ∈ B.stages, ∀ a ∈ B.outs s, ∀ b ∈ B.outs t, a.1 = b.1 → a.2 = b.2)
    (π₁ π₂ : SetOrder S) (sched₁ sched₂ : List (List S))
    (h₁ : (build cpython kind B π₁ (.namedTuple init)).1 = .ok sched₁)
    (h₂ : (build cpython kind B π₂ (.namedTuple init)).1 = .ok sched₂)
    (hread : ∀ e ∈ sched₁, ∀ s ∈ e, ∀ t ∈ e, s ≠ t → ∀ a ∈ B.outs s, ∀ b ∈ B.ins t, a.1 ≠ b.1)
    (args d : Dict N V)
    (hd : contents (runAll (pipelineOf B sched₁ run) State.init args) = .ok d) :
    contents (runAll (pipelineOf B sched₂ run) State.init args) = .ok d := by
  have hP₁ := built_proper hB h₁ run
  have hP₂ := built_proper hB h₂ run
  have hv := C01_schedule_valid kind B hB π₁ _ sched₁ h₁
  have hso : SameOutcome (build cpython kind B π₁ (.namedTuple init)).1
      (build cpython kind B π₂ (.namedTuple init)).1 :=
    build_rel (.refl _) rfl rfl (fun _ => Iff.rfl)
  rw [h₁, h₂] at hso
  have hperm : List.Forall₂ List.Perm sched₁ sched₂ := by
    cases hso with
    | ok _ _ h => exact h
  have e1 : contents (runAll (pipelineOf B sched₁ run) State.init args) =
      applyAll (pipelineOf B sched₁ run) 0 sched₁.flatten args :=
    (runFrom_apply hP₁ (Inv.init _) args sched₁ [] (by simp [pipelineOf])).1
  have e2 : contents (runAll (pipelineOf B sched₂ run) State.init args) =
      applyAll (pipelineOf B sched₂ run) 0 sched₂.flatten args :=
    (runFrom_apply hP₂ (Inv.init _) args sched₂ [] (by simp [pipelineOf])).1
  have e3 : ∀ k l d, applyAll (pipelineOf B sched₂ run) k l d =
      applyAll (pipelineOf B sched₁ run) k l d := by
    intro k l
    induction l generalizing k with
    | nil => intro d; rfl
    | cons s ss ih =>
      intro d
      have : applyStage (pipelineOf B sched₂ run) k s d = applyStage (pipelineOf B sched₁ run) k s d :=
        rfl
      unfold applyAll
      rw [this]
      split
      · rfl
      · exact ih _ _
  rw [e1] at hd
  rw [e2, e3]
  have hst : ∀ e ∈ sched₁, ∀ s ∈ e, s ∈ B.stages := by
    intro e he s hs
    obtain ⟨i, hi⟩ := List.getElem?_of_mem he
    exact (hv.complete s).2 ⟨i, e, hi, hs⟩
  refine applyAll_elements (P := pipelineOf B sched₁ run) hdet hperm ?_ ?_ 0 args d hd
  · intro e he s hs t ht hst'
    obtain ⟨i, hi⟩ := List.getElem?_of_mem he
    have hdis := (C04_no_conflict kind B hB π₁ _ sched₁ h₁ i s t ⟨e, hi, hs⟩ ⟨e, hi, ht⟩ hst').1
    have hnw : ∀ n, ¬ (Writes (pipelineOf B sched₁ run) s n ∧ Writes (pipelineOf B sched₁ run) t n) := by
      rintro n ⟨⟨k, vs, out, hr, hm⟩, ⟨k', vs', out', hr', hm'⟩⟩
      obtain ⟨a, ha, rfl⟩ := hdecl k s vs out hr n hm
      obtain ⟨b, hb, hab⟩ := hdecl k' t vs' out' hr' a.1 hm'
      have := huniq s (hst e he s hs) t (hst e he t ht) a ha b hb hab.symm
      exact hdis a ⟨ha, (Prod.ext hab.symm this : a = b) ▸ hb⟩
    intro n
    refine ⟨fun hw => ⟨?_, fun hw' => hnw n ⟨hw, hw'⟩⟩, fun hw => ⟨?_, fun hw' => hnw n ⟨hw', hw⟩⟩⟩
    · obtain ⟨k, vs, out, hr, hm⟩ := hw
      obtain ⟨a, ha, rfl⟩ := hdecl k s vs out hr n hm
      intro hf
      obtain ⟨b, hb, hab⟩ := List.mem_map.1 hf
      exact hread e he s hs t ht hst' a ha b hb hab.symm
    · obtain ⟨k, vs, out, hr, hm⟩ := hw
      obtain ⟨a, ha, rfl⟩ := hdecl k t vs out hr n hm
      intro hf
      obtain ⟨b, hb, hab⟩ := List.mem_map.1 hf
      exact hread e he t ht s hs (Ne.symm hst') a ha b hb hab.symm
  · intro e he
    exact (List.nodup_flatten.1 hv.once).1 e he

/-- Two independent stages in one element. -/
def beside : Builder Nat (Nat × Unit) where
  stages := [0, 1]
  ins := fun s => match s with | 0 => [(0, ())] | 1 => [(0, ()), (1, ())] | _ => []
  outs := fun s => match s with | 0 => [(2, ())] | 1 => [(3, ())] | _ => []

example : (build cpython (fun _ => .plain) beside Builder.idOrder (.namedTuple [(0, ()), (1, ())])).1 =
    .ok [[0, 1]] := rfl
example : (build cpython (fun _ => .plain) beside oneFirst (.namedTuple [(0, ()), (1, ())])).1 =
    .ok [[1, 0]] := rfl
example : ∀ e ∈ [[0, 1]], ∀ s ∈ e, ∀ t ∈ e, s ≠ t → ∀ a ∈ beside.outs s, ∀ b ∈ beside.ins t,
    a.1 ≠ b.1 := by decide

end Verif.Runner
