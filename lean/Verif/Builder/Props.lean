import Verif.Builder.Lemmas3
/-!
# Properties C01 - C09 of the stage builder

`build cpython kind B π init` is the call `builder.build(init)`; `π` is the (arbitrary) order
in which Python enumerates sets.  `B.stages.Nodup` holds for every builder made by
`add_stage` calls (`C09_histories`).
-/
set_option autoImplicit false

namespace Verif.Builder

variable {S A : Type} [DecidableEq S] [DecidableEq A]

/-! ### Concrete pipelines used as examples -/

/-- The enumeration that keeps list order. -/
def idOrder : SetOrder Nat := ⟨fun _ l => l, fun _ _ => .refl _⟩

/-- The enumeration that reverses every set. -/
def revOrder : SetOrder Nat := ⟨fun _ l => l.reverse, fun _ l => l.reverse_perm⟩

def noKind : Nat → Kind Nat := fun _ => .plain

/-- Stage 0 turns 10 into 11, stage 1 mutates 11 and makes 12, stages 2 and 3 read 11 and 12. -/
def demo : Builder Nat Nat where
  stages := [3, 2, 1, 0]
  ins := fun s => match s with | 0 => [10] | 1 => [11] | 2 => [11, 12] | 3 => [12, 11] | _ => []
  outs := fun s => match s with | 0 => [11] | 1 => [11, 12] | 2 => [13] | 3 => [14] | _ => []

example : (build cpython noKind demo idOrder (.namedTuple [10])).1 = .ok [[0], [1], [3, 2]] := rfl
example : (build cpython noKind demo revOrder (.namedTuple [10])).1 = .ok [[0], [1], [3, 2]] := rfl
example : demo.stages.Nodup := by decide

/-! ### The loop of the model never runs out of fuel -/

/-- The bound used for the `while` loop is never the reason for a result. -/
theorem resolve_fuel (rt : Runtime) (kind : A → Kind S) (B : Builder S A) (π : SetOrder S)
    (init : InitArg A) : (build rt kind B π init).1 ≠ .error .outOfFuel := by
  intro h
  unfold build at h
  simp only at h
  have hr : (resolve rt kind B π init.args).out ≠ .error .outOfFuel := by
    unfold resolve
    split
    · rename_i e he
      intro h
      simp only [Except.error.injEq] at h
      subst h
      exact absurd (gather_error he).1 (by simp)
    · apply loop_fuel
      simp [unresolved]
  split at h
  · rename_i e he
    simp only [Except.error.injEq] at h
    subst h
    exact hr he
  · split at h <;> cases h

/-! ### C01 -/

/-- **C01.** Every schedule returned by `build` contains every added stage exactly once and
nothing else, and every input of a stage is available before its element. -/
theorem C01_schedule_valid (kind : A → Kind S) (B : Builder S A) (hB : B.stages.Nodup)
    (π : SetOrder S) (init : InitArg A) (sched : List (List S))
    (h : (build cpython kind B π init).1 = .ok sched) :
    ValidSchedule B.stages B.ins B.outs init.args sched := by
  obtain ⟨h1, -⟩ := build_ok h
  obtain ⟨restr, hr, hs, -⟩ := resolve_sched hB h1
  refine ⟨?_, hs.nodup.1, ?_, ?_⟩
  · intro s
    constructor
    · intro hst
      rcases hs.all_done s hst with h | h
      · exact h.elim
      · exact stageAt_iff.2 h
    · rintro ⟨i, e, he, hse⟩
      exact ((hs.get i e he).1.stage s hse).1
  · intro e he
    obtain ⟨i, hi⟩ := List.getElem?_of_mem he
    exact (hs.get i e hi).2
  · rintro i s ⟨e, he, hse⟩ a ha
    have hstep := (hs.get i e he).1
    have hst := (hstep.stage s hse).1
    have := hstep.inputs s hse a (by rw [strip_cpython hr hst]; exact ha)
    rcases this with h | ⟨j, t, hj, ht, hat⟩
    · exact .inl h
    · exact .inr ⟨j, t, hj, ht, hat⟩

example : ValidSchedule demo.stages demo.ins demo.outs [10] [[0], [1], [3, 2]] :=
  C01_schedule_valid noKind demo (by decide) idOrder (.namedTuple [10]) _ rfl

/-! ### C02 -/

/-- **C02.** Adding the same stages in another order, with another enumeration of sets and
another representation of the same initial inputs, gives the same exception or the same
schedule up to the order inside the elements. -/
theorem C02_order_irrelevant (rt : Runtime) (kind : A → Kind S) (calls₁ calls₂ : List (Call S A))
    (hperm : calls₁.Perm calls₂) (hnd : (calls₁.map Call.stage).Nodup) (π₁ π₂ : SetOrder S)
    (init₁ init₂ : InitArg A) (hinit : ∀ a, a ∈ init₁.args ↔ a ∈ init₂.args) :
    SameOutcome (build rt kind (runCalls rt kind calls₁ Builder.empty) π₁ init₁).1
      (build rt kind (runCalls rt kind calls₂ Builder.empty) π₂ init₂).1 := by
  obtain ⟨h1, h2, h3⟩ := runCalls_perm (rt := rt) (kind := kind) hperm hnd
  exact build_rel h1 h2 h3 hinit

def demoCalls : List (Call Nat Nat) :=
  [⟨0, [10], [11]⟩, ⟨1, [11], [11, 12]⟩, ⟨2, [11, 12], [13]⟩, ⟨3, [12, 11], [14]⟩]

example : SameOutcome
    (build cpython noKind (runCalls cpython noKind demoCalls Builder.empty) idOrder
      (.namedTuple [10])).1
    (build cpython noKind (runCalls cpython noKind demoCalls.reverse Builder.empty) revOrder
      (.setObject [10, 10])).1 :=
  C02_order_irrelevant cpython noKind demoCalls demoCalls.reverse (List.reverse_perm _).symm
    (by decide) idOrder revOrder _ _ (by simp [InitArg.args])

example : (build cpython noKind (runCalls cpython noKind demoCalls Builder.empty) idOrder
      (.namedTuple [10])).1 = .ok [[0], [1], [2, 3]] := rfl
example : (build cpython noKind (runCalls cpython noKind demoCalls.reverse Builder.empty) idOrder
      (.setObject [10, 10])).1 = .ok [[0], [1], [3, 2]] := rfl

/-! ### C03 -/

/-- **C03.** For plain pipelines (every stage has an output, no stage outputs one of its own
inputs, no output is shared, no run restrictions) `build` succeeds exactly when some linear
order of the stages finds all inputs. -/
theorem C03_complete (kind : A → Kind S) (B : Builder S A) (hB : B.stages.Nodup)
    (hplain : ∀ s ∈ B.stages, ∀ a ∈ B.ins s, kind a = .plain)
    (hmut : ∀ s ∈ B.stages, ∀ a ∈ B.ins s, a ∉ B.outs s)
    (hdis : ∀ s ∈ B.stages, ∀ t ∈ B.stages, s ≠ t → ∀ a ∈ B.outs s, a ∉ B.outs t)
    (hne : ∀ s ∈ B.stages, B.outs s ≠ []) (π : SetOrder S) (init : InitArg A) :
    (∃ sched, (build cpython kind B π init).1 = .ok sched) ↔
      ∃ order : List S, order.Perm B.stages ∧ Runnable B.ins B.outs init.args order := by
  constructor
  · rintro ⟨sched, h⟩
    have hv := C01_schedule_valid kind B hB π init sched h
    refine ⟨sched.flatten, ?_, flatten_runnable sched hv.inputs⟩
    rw [List.perm_ext_iff_of_nodup hv.once hB]
    intro s
    rw [hv.complete s, stageAt_iff, List.mem_flatten]
  · rintro ⟨order, hperm, hrun⟩
    have hstrip : ∀ s ∈ B.stages, strip cpython kind (B.ins s) = B.ins s := by
      intro s hs
      unfold strip
      rw [List.filter_eq_self]
      intro a ha
      simp [hplain s hs a ha, isBefore, isAfter]
    obtain ⟨restr, hr⟩ : ∃ restr, orderingRestrictions cpython kind B = .ok restr := by
      cases h : orderingRestrictions cpython kind B with
      | ok r => exact ⟨r, rfl⟩
      | error e =>
        obtain ⟨-, ⟨s, a⟩, hp, hk⟩ := gather_error h
        obtain ⟨t, ht, hp⟩ := List.mem_flatMap.1 hp
        obtain ⟨b, hb, hp⟩ := List.mem_map.1 hp
        cases hp
        rw [hplain _ ht _ hb] at hk
        simp at hk
    have hr0 : restr = [] := (gather_ok hr).2.2 rfl
    obtain ⟨sched, hs⟩ := loop_complete (rt := cpython) (kind := kind) (π := π) (n := 0)
      (fuel := B.stages.length + 1) (res := []) (restr := restr) hmut hdis hne hperm
      (fun i s hi => ⟨by
        rw [hstrip s (hperm.mem_iff.1 (List.mem_of_getElem? hi))]
        exact hrun i s hi, by simp [hr0, runAfter]⟩)
      (fun a ha => ha) (by simp) (by simp [unresolved])
    have hres : resolve cpython kind B π init.args =
        loop cpython kind B restr π (B.stages.length + 1) 0 [] init.args := by
      unfold resolve; rw [hr]
    obtain ⟨hsch, hav⟩ := loop_sched hB hs
    refine ⟨sched, ?_⟩
    unfold build
    simp only [hres, hs]
    rw [if_pos]
    apply checkRunnable_of_subset
    intro e he s hse a ha
    obtain ⟨i, hi⟩ := List.getElem?_of_mem he
    have hstep := (hsch.get i e hi).1
    have := hstep.inputs s hse a (by rw [hstrip s (hstep.stage s hse).1]; exact ha)
    rw [hav]
    rcases this with h | ⟨j, t, hj, ⟨e', he', ht⟩, hat⟩
    · exact .inl h
    · exact .inr ⟨e', List.mem_of_getElem? he', t, ht, hat⟩

/-- A plain pipeline: 0 makes 11 from 10, 1 makes 12 from 11, 2 makes 13 from 10 and 12. -/
def plainDemo : Builder Nat Nat where
  stages := [2, 1, 0]
  ins := fun s => match s with | 0 => [10] | 1 => [11] | 2 => [10, 12] | _ => []
  outs := fun s => match s with | 0 => [11] | 1 => [12] | 2 => [13] | _ => []

example : (∀ s ∈ plainDemo.stages, ∀ a ∈ plainDemo.ins s, noKind a = .plain) ∧
    (∀ s ∈ plainDemo.stages, ∀ a ∈ plainDemo.ins s, a ∉ plainDemo.outs s) ∧
    (∀ s ∈ plainDemo.stages, ∀ t ∈ plainDemo.stages, s ≠ t →
      ∀ a ∈ plainDemo.outs s, a ∉ plainDemo.outs t) ∧
    (∀ s ∈ plainDemo.stages, plainDemo.outs s ≠ []) := by decide
example : (build cpython noKind plainDemo idOrder (.namedTuple [10])).1 = .ok [[0], [1], [2]] := rfl
example : (build cpython noKind plainDemo idOrder (.namedTuple [11])).1 = .error .missingInputs :=
  rfl

/-! ### C04 -/

/-- **C04.** Two different stages of one element never declare the same output, and a stage
never reads an argument which another stage of the element both reads and outputs. -/
theorem C04_no_conflict (kind : A → Kind S) (B : Builder S A) (hB : B.stages.Nodup)
    (π : SetOrder S) (init : InitArg A) (sched : List (List S))
    (h : (build cpython kind B π init).1 = .ok sched) (i : Nat) (s t : S)
    (hs : StageAt sched i s) (ht : StageAt sched i t) (hne : s ≠ t) :
    (∀ a, ¬ (a ∈ B.outs s ∧ a ∈ B.outs t)) ∧
    (∀ a, ¬ (a ∈ B.ins s ∧ a ∈ B.ins t ∧ a ∈ B.outs t)) := by
  obtain ⟨h1, -⟩ := build_ok h
  obtain ⟨restr, hr, hsch, -⟩ := resolve_sched hB h1
  obtain ⟨e, he, hse⟩ := hs
  obtain ⟨e', he', hte⟩ := ht
  rw [he] at he'
  cases he'
  have hstep := (hsch.get i e he).1
  refine ⟨fun a ⟨ha, ha'⟩ => hstep.disjoint s hse t hte hne a ha ha', ?_⟩
  rintro a ⟨ha, ha', ha''⟩
  exact hstep.mutation t (hstep.stage t hte).1 (hstep.stage t hte).2 (hstep.inputs t hte)
    (hstep.after t hte) a ha' ha'' s hse hne ha

example : StageAt [[0], [1], [3, 2]] 2 3 ∧ StageAt [[0], [1], [3, 2]] 2 2 ∧ 3 ≠ (2 : Nat) :=
  ⟨⟨[3, 2], rfl, by simp⟩, ⟨[3, 2], rfl, by simp⟩, by decide⟩

/-! ### C05 -/

/-- The documented claim: every other reader of an argument is scheduled after a stage that
mutates it. -/
def ReadersAfterMutators (B : Builder S A) (sched : List (List S)) : Prop :=
  ∀ i j m r a, StageAt sched i m → StageAt sched j r → r ≠ m →
    a ∈ B.ins m → a ∈ B.outs m → a ∈ B.ins r → i < j

/-- Stage 0 reads 10; stage 1 mutates 10 but waits for 20, which stage 2 makes. -/
def overtaken : Builder Nat Nat where
  stages := [0, 1, 2]
  ins := fun s => match s with | 0 => [10] | 1 => [10, 20] | 2 => [15] | _ => []
  outs := fun s => match s with | 0 => [30] | 1 => [10] | 2 => [20] | _ => []

/-- **C05 is false of the code**: a reader overtakes a mutating stage that still waits for
another input. -/
theorem C05_refuted :
    (build cpython noKind overtaken idOrder (.namedTuple [10, 15])).1 = .ok [[0, 2], [1]] ∧
    ¬ ReadersAfterMutators overtaken [[0, 2], [1]] := by
  refine ⟨rfl, fun h => ?_⟩
  have := h 1 0 1 0 10 ⟨[1], rfl, by simp⟩ ⟨[0, 2], rfl, by simp⟩ (by decide) (by decide)
    (by decide) (by decide)
  omega

/-- **C05, true part.** A reader is never scheduled before or beside a mutating stage all of
whose inputs were available at that moment.  Missing: mutating stages that still wait. -/
theorem C05_partial (kind : A → Kind S) (B : Builder S A) (hB : B.stages.Nodup)
    (π : SetOrder S) (init : InitArg A) (sched : List (List S))
    (h : (build cpython kind B π init).1 = .ok sched) (i j : Nat) (m r : S) (a : A)
    (hm : StageAt sched i m) (hr : StageAt sched j r) (hne : r ≠ m)
    (ha : a ∈ B.ins m) (ha' : a ∈ B.outs m) (har : a ∈ B.ins r)
    (hready : ∀ b ∈ B.ins m, AvailableBefore B.outs init.args sched j b) : i < j := by
  obtain ⟨h1, -⟩ := build_ok h
  obtain ⟨restr, hrestr, hsch, -⟩ := resolve_sched hB h1
  by_contra hij
  obtain ⟨e, he, hre⟩ := hr
  have hstep := (hsch.get j e he).1
  have hmst : m ∈ B.stages := by
    obtain ⟨e', he', hme⟩ := hm
    exact ((hsch.get i e' he').1.stage m hme).1
  refine hstep.mutation m hmst ?_ ?_ ?_ a ha ha' r hre hne har
  · rintro (h | ⟨k, hk, hkm⟩)
    · exact h
    · have := stageAt_unique hsch.nodup.1 hm hkm
      omega
  · rw [strip_cpython hrestr hmst]
    intro b hb
    rcases hready b hb with h | ⟨k, t, hk, ht, hbt⟩
    · exact .inl h
    · exact .inr ⟨k, t, hk, ht, hbt⟩
  · have : restr = [] := (gather_ok hrestr).2.2 rfl
    subst this
    simp [runAfter]

example : (1 : Nat) < 2 :=
  C05_partial noKind demo (by decide) idOrder (.namedTuple [10]) [[0], [1], [3, 2]] rfl 1 2 1 3 11
    ⟨[1], rfl, by simp⟩ ⟨[3, 2], rfl, by simp⟩ (by decide) (by decide) (by decide) (by decide)
    (by
      intro b hb
      exact .inr ⟨0, 0, by omega, ⟨[0], rfl, by simp⟩, by revert b; decide⟩)

/-! ### C06 -/

/-- The documented claim: restrictions are honoured by every successful build. A pipeline is
usable with restrictions if some build succeeds although a stage declares one. -/
def RestrictionsUsable (rt : Runtime) (kind : A → Kind S) : Prop :=
  ∃ (B : Builder S A) (π : SetOrder S) (init : InitArg A) (sched : List (List S)) (s : S) (a : A),
    B.stages.Nodup ∧ s ∈ B.stages ∧ a ∈ B.ins s ∧ (∃ t, kind a = .beforeAlias t ∨ kind a = .afterAlias t) ∧
    a ∉ init.args ∧ (∀ u ∈ B.stages, a ∉ B.outs u) ∧
    (build rt kind B π init).1 = .ok sched

/-- **C06 is false of the code**: no pipeline in which a stage declares `RunBefore[..]` or
`RunAfter[..]` can be built (unless the marker is supplied as if it were data).  This holds
for CPython, where the markers are not recognised and count as missing inputs, and would hold
as well if they were recognised, because the runner's own check counts them as inputs. -/
theorem C06_refuted (rt : Runtime) (kind : A → Kind S) : ¬ RestrictionsUsable (A := A) rt kind := by
  rintro ⟨B, π, init, sched, s, a, hB, hs, ha, -, hinit, hout, h⟩
  obtain ⟨h1, h2⟩ := build_ok h
  obtain ⟨restr, hr, hsch, hav⟩ := resolve_sched hB h1
  rcases hsch.all_done s hs with h | h
  · exact h
  · obtain ⟨i, hi⟩ := stageAt_iff.2 h
    have hno : ∀ e ∈ sched, ∀ t ∈ e, a ∉ B.outs t := by
      intro e he t ht
      obtain ⟨j, hj⟩ := List.getElem?_of_mem he
      exact hout t ((hsch.get j e hj).1.stage t ht).1
    rcases checkRunnable_mem h2 hi ha with h | ⟨e, he, t, ht, hat⟩
    · rcases (hav a).1 h with h | ⟨e, he, t, ht, hat⟩
      · exact hinit h
      · exact hno e he t ht hat
    · exact hno e he t ht hat

/-- Arguments 100 + t are `RunBefore[t]`, 200 + t are `RunAfter[t]`. -/
def markKind : Nat → Kind Nat := fun a =>
  if 200 ≤ a then .afterAlias (a - 200) else if 100 ≤ a then .beforeAlias (a - 100) else .plain

/-- Stage 0 must run before stage 1; both need only 10. -/
def restricted : Builder Nat Nat where
  stages := [1, 0]
  ins := fun s => match s with | 0 => [10, 101] | 1 => [10] | _ => []
  outs := fun s => match s with | 0 => [11] | 1 => [12] | _ => []

example : (build cpython markKind restricted idOrder (.namedTuple [10])).1 =
    .error .missingInputs := rfl
example : (build ⟨true⟩ markKind restricted idOrder (.namedTuple [10])).1 =
    .error .stageRunning := rfl

/-- **C06, true part.** If the markers were recognised (`aliasIsType`), the resolver itself
would order the stages as declared.  Missing: recognition by `isinstance`, and the check in
`StageRunner.__init__`. -/
theorem C06_partial (kind : A → Kind S) (B : Builder S A) (hB : B.stages.Nodup) (π : SetOrder S)
    (init : List A) (sched : List (List S)) (h : (resolve ⟨true⟩ kind B π init).out = .ok sched)
    (s t : S) (hs : s ∈ B.stages) (ht : t ∈ B.stages) (hst : MustPrecede kind B s t)
    (i j : Nat) (hi : StageAt sched i s) (hj : StageAt sched j t) : i < j := by
  obtain ⟨restr, hr, hsch, -⟩ := resolve_sched hB h
  have hmem : (s, t) ∈ restr := by
    rcases hst with ⟨a, ha, hk⟩ | ⟨a, ha, hk⟩
    · exact (((gather_ok hr).2.1 rfl) (s, a) (restrictions_mem hs ha) t).1 hk
    · exact (((gather_ok hr).2.1 rfl) (t, a) (restrictions_mem ht ha) s).2 hk
  obtain ⟨e, he, hte⟩ := hj
  have hstep := (hsch.get j e he).1
  have := hstep.after t hte s (by
    unfold runAfter
    exact List.mem_map.2 ⟨(s, t), List.mem_filter.2 ⟨hmem, by simp⟩, rfl⟩)
  rcases this with h | ⟨k, hk, hks⟩
  · exact h.elim
  · have := stageAt_unique hsch.nodup.1 hi hks
    omega

example : (0 : Nat) < 1 :=
  C06_partial markKind restricted (by decide) idOrder [10] [[0], [1]] rfl 0 1 (by decide) (by decide)
    (.inl ⟨101, by decide, rfl⟩) 0 1 ⟨[0], rfl, by simp⟩ ⟨[1], rfl, by simp⟩

/-! ### C07 -/

/-- **C07.** A pipeline with a stage that declares no output can never be built. -/
theorem C07_output_required (rt : Runtime) (kind : A → Kind S) (B : Builder S A) (π : SetOrder S)
    (init : InitArg A) (s : S) (hs : s ∈ B.stages) (hout : B.outs s = []) :
    ∃ e, (build rt kind B π init).1 = .error e := by
  cases h : (build rt kind B π init).1 with
  | error e => exact ⟨e, rfl⟩
  | ok sched =>
    exfalso
    obtain ⟨h1, -⟩ := build_ok h
    obtain ⟨restr, hr, heq⟩ := resolve_ok h1
    rw [heq] at h1
    rcases loop_ok_outs h1 s hs with h | h
    · simp at h
    · exact h hout

example : ∃ e, (build cpython noKind
    { demo with outs := fun s => match s with | 0 => [11] | 1 => [11, 12] | 2 => [13] | _ => [] }
    idOrder (.namedTuple [10])).1 = .error e :=
  C07_output_required _ _ _ _ _ 3 (by decide) rfl

/-! ### C08 -/

/-- The claim: building again with the same argument object gives the same outcome. -/
def BuildRepeatable (rt : Runtime) (kind : A → Kind S) (B : Builder S A) (π : SetOrder S)
    (init : InitArg A) : Prop :=
  (build rt kind B π (build rt kind B π init).2).1 = (build rt kind B π init).1

/-- **C08 is false of the code** for a set object: the first call adds every output to the
caller's set, so the second call puts a consumer beside its producer. -/
theorem C08_refuted : ¬ BuildRepeatable cpython noKind plainDemo idOrder (.setObject [10]) := by
  intro h
  have h1 : (build cpython noKind plainDemo idOrder (.setObject [10])).1 = .ok [[0], [1], [2]] := rfl
  have h2 : (build cpython noKind plainDemo idOrder
      (build cpython noKind plainDemo idOrder (.setObject [10])).2).1 = .ok [[2, 1, 0]] := rfl
  unfold BuildRepeatable at h
  rw [h1, h2] at h
  simp at h

/-- **C08, true part.** Building is repeatable when the argument is a NamedTuple class; and
for a set object the caller's set afterwards contains exactly its old members and the outputs
of the scheduled stages. Missing: sets. -/
theorem C08_partial (rt : Runtime) (kind : A → Kind S) (B : Builder S A) (hB : B.stages.Nodup)
    (π : SetOrder S) (args : List A) :
    BuildRepeatable rt kind B π (.namedTuple args) ∧
    ∀ sched, (build rt kind B π (.setObject args)).1 = .ok sched →
      ∃ contents, (build rt kind B π (.setObject args)).2 = .setObject contents ∧
        ∀ a, a ∈ contents ↔ a ∈ args ∨ ∃ s ∈ B.stages, a ∈ B.outs s := by
  constructor
  · unfold BuildRepeatable
    have : (build rt kind B π (.namedTuple args)).2 = .namedTuple args := by
      unfold build
      simp only
      split
      · rfl
      · split <;> rfl
    rw [this]
  · intro sched h
    obtain ⟨h1, h2⟩ := build_ok h
    obtain ⟨restr, hr, hsch, hav⟩ := resolve_sched hB h1
    refine ⟨(resolve rt kind B π args).avail, ?_, ?_⟩
    · unfold build
      simp only
      split
      · rfl
      · split <;> rfl
    · intro a
      have := hav a
      simp only [InitArg.args] at this
      rw [this]
      constructor
      · rintro (h | ⟨e, he, t, ht, hat⟩)
        · exact .inl h
        · obtain ⟨j, hj⟩ := List.getElem?_of_mem he
          exact .inr ⟨t, ((hsch.get j e hj).1.stage t ht).1, hat⟩
      · rintro (h | ⟨s, hs, has⟩)
        · exact .inl h
        · rcases hsch.all_done s hs with h | ⟨e, he, hse⟩
          · exact h.elim
          · exact .inr ⟨e, he, s, hse, has⟩

example : (build cpython noKind plainDemo idOrder (.setObject [10])).2 =
    .setObject [10, 11, 12, 13] := rfl

/-! ### C09 -/

/-- **C09, single call.** A call raises `ValueError` exactly when the stage is present,
`TypeError` exactly when it is absent and declares a recognised restriction as output; a call
that raises changes nothing; otherwise the stage is present with the given declaration and
all other stages keep theirs. -/
theorem C09_call (rt : Runtime) (kind : A → Kind S) (B : Builder S A) (c : Call S A) :
    ((addStage rt kind B c.stage c.ins c.outs).1 = .error .valueError ↔ c.stage ∈ B.stages) ∧
    ((addStage rt kind B c.stage c.ins c.outs).1 = .error .typeError ↔
      c.stage ∉ B.stages ∧ ¬ c.clean rt kind) ∧
    (∀ e, (addStage rt kind B c.stage c.ins c.outs).1 = .error e →
      (addStage rt kind B c.stage c.ins c.outs).2 = B) ∧
    ((addStage rt kind B c.stage c.ins c.outs).1 = .ok () →
      let B' := (addStage rt kind B c.stage c.ins c.outs).2
      (∀ s, s ∈ B'.stages ↔ s = c.stage ∨ s ∈ B.stages) ∧
      B'.ins c.stage = c.ins ∧ B'.outs c.stage = c.outs ∧
      ∀ s ∈ B.stages, B'.ins s = B.ins s ∧ B'.outs s = B.outs s) := by
  rcases addStage_cases rt kind B c with ⟨h1, h2⟩ | ⟨h1, h2, h3⟩ | ⟨h1, h2, h3⟩
  · rw [h2]; simp [h1]
  · rw [h3]; simp [h1, h2]
  · rw [h3]
    refine ⟨by simp [h1], by simp [h2], by simp, ?_⟩
    intro _
    refine ⟨?_, by simp, by simp, ?_⟩
    · intro s; simp [or_comm]
    · intro s hs
      have : s ≠ c.stage := fun h => h1 (h ▸ hs)
      simp [this]

/-- **C09, histories.** After any sequence of `add_stage` calls on a new builder, the stages
are duplicate free, a stage is present exactly when one of its calls was acceptable, and its
declaration is that of its first acceptable call. -/
theorem C09_histories (rt : Runtime) (kind : A → Kind S) (calls : List (Call S A)) :
    let B := runCalls rt kind calls Builder.empty
    B.stages.Nodup ∧
    (∀ s, s ∈ B.stages ↔ ∃ c ∈ calls, c.stage = s ∧ c.clean rt kind) ∧
    (∀ pre c post, calls = pre ++ c :: post → c.clean rt kind →
      (∀ d ∈ pre, d.stage = c.stage → ¬ d.clean rt kind) →
      B.ins c.stage = c.ins ∧ B.outs c.stage = c.outs) := by
  obtain ⟨h1, h2⟩ := runCalls_stages (rt := rt) (kind := kind) calls
    (Builder.empty (S := S) (A := A)) (by simp [Builder.empty])
  refine ⟨h1, ?_, ?_⟩
  · intro s
    rw [h2 s]
    simp [Builder.empty]
  · rintro pre c post rfl hc hpre
    exact runCalls_first pre post c hc hpre

/-- A history with a duplicate and (were markers recognised) a rejected output. -/
example :
    let calls : List (Call Nat Nat) := [⟨0, [1], [101]⟩, ⟨0, [2], [3]⟩, ⟨0, [4], [5]⟩]
    (runCalls ⟨true⟩ markKind calls Builder.empty).stages = [0] ∧
    (runCalls ⟨true⟩ markKind calls Builder.empty).ins 0 = [2] ∧
    (runCalls cpython markKind calls Builder.empty).ins 0 = [1] := ⟨rfl, rfl, rfl⟩

end Verif.Builder
