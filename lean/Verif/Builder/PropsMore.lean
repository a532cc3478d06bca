import Verif.Builder.Props
/-!
# Further properties of the stage builder: C06 (resolver), C116, C117
-/
set_option autoImplicit false

namespace Verif.Builder

variable {S A : Type} [DecidableEq S] [DecidableEq A]

/-! ### C06: the resolver is complete for restricted pipelines -/

/-- **C06, further true part.** If the markers were recognised, the resolver itself would
find a schedule exactly when the stages can be put into an order that supplies the data
inputs and obeys the declared restrictions (for pipelines in which every stage has an output,
no stage outputs one of its own inputs and no output is shared).  The markers are not
treated as data.  Missing, as in `C06_partial`: recognition by `isinstance`, and the check in
`StageRunner.__init__`. -/
theorem C06_resolver_complete_partial (kind : A → Kind S) (B : Builder S A) (hB : B.stages.Nodup)
    (hclass : ∀ s ∈ B.stages, ∀ a ∈ B.ins s, kind a ≠ .beforeClass ∧ kind a ≠ .afterClass)
    (hmut : ∀ s ∈ B.stages, ∀ a ∈ B.ins s, a ∉ B.outs s)
    (hdis : ∀ s ∈ B.stages, ∀ t ∈ B.stages, s ≠ t → ∀ a ∈ B.outs s, a ∉ B.outs t)
    (hne : ∀ s ∈ B.stages, B.outs s ≠ []) (π : SetOrder S) (init : List A) :
    (∃ sched, (resolve ⟨true⟩ kind B π init).out = .ok sched) ↔
      ∃ order : List S, order.Perm B.stages ∧ ObeyingOrder kind B.ins B.outs init order := by
  have hstrip : ∀ s ∈ B.stages, ∀ a, a ∈ strip ⟨true⟩ kind (B.ins s) ↔
      a ∈ B.ins s ∧ kind a = .plain := by
    intro s hs a
    unfold strip
    rw [List.mem_filter]
    refine and_congr_right fun ha => ?_
    obtain ⟨h1, h2⟩ := hclass s hs a ha
    cases hk : kind a <;> simp [isBefore, isAfter, hk] at h1 h2 ⊢
  constructor
  · rintro ⟨sched, h⟩
    obtain ⟨restr, hr, hsch, -⟩ := resolve_sched hB h
    have hmem : ∀ s, s ∈ sched.flatten ↔ s ∈ B.stages := by
      intro s
      rw [List.mem_flatten]
      constructor
      · rintro ⟨e, he, hs⟩
        obtain ⟨i, hi⟩ := List.getElem?_of_mem he
        exact ((hsch.get i e hi).1.stage s hs).1
      · intro hs
        rcases hsch.all_done s hs with h | h
        · exact h.elim
        · exact h
    refine ⟨sched.flatten, (List.perm_ext_iff_of_nodup hsch.nodup.1 hB).2 hmem, ⟨?_, ?_, ?_⟩⟩
    · intro k s hk a ha hp
      obtain ⟨i, ⟨e, he, hse⟩, hprev⟩ := flatten_key sched k s hk
      have hs := (hmem s).1 (List.mem_of_getElem? hk)
      rcases (hsch.get i e he).1.inputs s hse a ((hstrip s hs a).2 ⟨ha, hp⟩) with
        h | ⟨j, t, hj, ht, hat⟩
      · exact .inl h
      · obtain ⟨k', h1, h2⟩ := hprev j t hj ht
        exact .inr ⟨k', t, h1, h2, hat⟩
    · intro k s t hk a ha hp
      obtain ⟨i, ⟨e, he, hse⟩, hprev⟩ := flatten_key sched k s hk
      have hs := (hmem s).1 (List.mem_of_getElem? hk)
      have hin : (t, s) ∈ restr :=
        (((gather_ok hr).2.1 rfl) (s, a) (restrictions_mem hs ha) t).2 hp
      rcases (hsch.get i e he).1.after s hse t (by
        unfold runAfter
        exact List.mem_map.2 ⟨(t, s), List.mem_filter.2 ⟨hin, by simp⟩, rfl⟩) with h | ⟨j, hj, ht⟩
      · exact h.elim
      · exact hprev j t hj ht
    · intro k k' s t hk a ha hp hk'
      obtain ⟨i, hi, -⟩ := flatten_key sched k s hk
      obtain ⟨j, hj, hprev⟩ := flatten_key sched k' t hk'
      have hs := (hmem s).1 (List.mem_of_getElem? hk)
      have ht := (hmem t).1 (List.mem_of_getElem? hk')
      have hij : i < j := C06_partial kind B hB π init sched h s t hs ht (.inl ⟨a, ha, hp⟩) i j hi hj
      obtain ⟨k'', h1, h2⟩ := hprev i s hij hi
      have hlt : k < sched.flatten.length := (List.getElem?_eq_some_iff.1 hk).1
      have : k = k'' := (List.getElem?_inj hlt hsch.nodup.1).1 (hk.trans h2.symm)
      omega
  · rintro ⟨order, hperm, hrun⟩
    have hst : ∀ (i : Nat) s, order[i]? = some s → s ∈ B.stages := fun i s hi =>
      hperm.mem_iff.1 (List.mem_of_getElem? hi)
    obtain ⟨restr, hr⟩ : ∃ restr, orderingRestrictions ⟨true⟩ kind B = .ok restr := by
      cases h : orderingRestrictions ⟨true⟩ kind B with
      | ok r => exact ⟨r, rfl⟩
      | error e =>
        obtain ⟨-, ⟨s, a⟩, hp, hk⟩ := gather_error h
        obtain ⟨t, ht, hp⟩ := List.mem_flatMap.1 hp
        obtain ⟨b, hb, hp⟩ := List.mem_map.1 hp
        cases hp
        obtain ⟨h1, h2⟩ := hclass _ ht _ hb
        rcases hk with h | h
        · exact absurd h h1
        · exact absurd h h2
    obtain ⟨sched, hs⟩ := loop_complete (rt := ⟨true⟩) (kind := kind) (π := π) (n := 0)
      (fuel := B.stages.length + 1) (res := []) (restr := restr) (init := init) hmut hdis hne hperm
      (by
        intro i s hi
        refine ⟨fun a ha => ?_, fun t ht => ?_⟩
        · obtain ⟨h1, h2⟩ := (hstrip s (hst i s hi) a).1 ha
          exact hrun.data i s hi a h1 h2
        · obtain ⟨⟨t', s'⟩, hp, heq⟩ := List.mem_map.1 ht
          obtain ⟨hp', hps⟩ := List.mem_filter.1 hp
          clear hp
          simp only [decide_eq_true_eq] at hps heq
          subst hps heq
          obtain ⟨⟨u, a⟩, hua, rs, hrs, hin⟩ := (gather_mem hr _).1 hp'
          obtain ⟨u', hu', hua⟩ := List.mem_flatMap.1 hua
          obtain ⟨b, hb, hua⟩ := List.mem_map.1 hua
          simp only [Prod.mk.injEq] at hua
          obtain ⟨rfl, rfl⟩ := hua
          simp only [argRestrictions] at hrs
          cases hk : kind b <;> simp only [hk, if_true] at hrs
          · cases hrs; cases hin
          · cases hrs
            simp only [List.mem_singleton, Prod.mk.injEq] at hin
            obtain ⟨rfl, rfl⟩ := hin
            obtain ⟨j, hj⟩ := List.getElem?_of_mem (hperm.mem_iff.2 hu')
            exact ⟨j, hrun.before j i _ _ hj b hb hk hi, hj⟩
          · cases hrs
            simp only [List.mem_singleton, Prod.mk.injEq] at hin
            obtain ⟨rfl, rfl⟩ := hin
            exact hrun.after i _ _ hi b hb hk
          · cases hrs
          · cases hrs)
      (fun a ha => ha) (by simp) (by simp [unresolved])
    refine ⟨sched, ?_⟩
    unfold resolve
    rw [hr]
    exact hs

example : (∀ s ∈ restricted.stages, ∀ a ∈ restricted.ins s,
      markKind a ≠ .beforeClass ∧ markKind a ≠ .afterClass) ∧
    (∀ s ∈ restricted.stages, ∀ a ∈ restricted.ins s, a ∉ restricted.outs s) ∧
    (∀ s ∈ restricted.stages, ∀ t ∈ restricted.stages, s ≠ t →
      ∀ a ∈ restricted.outs s, a ∉ restricted.outs t) ∧
    (∀ s ∈ restricted.stages, restricted.outs s ≠ []) := by decide
example : (resolve ⟨true⟩ markKind restricted idOrder [10]).out = .ok [[0], [1]] := rfl

/-! ### C116 -/

/-- **C116.** Every stage is scheduled as early as it can be: if it is not in element `j` or an
earlier one, then at `j` one of its inputs is not available yet, or one of its inputs is
mutated by another stage that is pending and ready at `j`. -/
theorem C116_as_early_as_possible (kind : A → Kind S) (B : Builder S A) (hB : B.stages.Nodup)
    (π : SetOrder S) (init : InitArg A) (sched : List (List S))
    (h : (build cpython kind B π init).1 = .ok sched) (i j : Nat) (s : S)
    (hs : StageAt sched i s) (hij : j < i) :
    (∃ a ∈ B.ins s, ¬ AvailableBefore B.outs init.args sched j a) ∨
    (∃ k m a, j ≤ k ∧ StageAt sched k m ∧ m ≠ s ∧
      (∀ b ∈ B.ins m, AvailableBefore B.outs init.args sched j b) ∧
      a ∈ B.ins m ∧ a ∈ B.outs m ∧ a ∈ B.ins s) := by
  obtain ⟨h1, -⟩ := build_ok h
  obtain ⟨restr, hrestr, hsch, -⟩ := resolve_sched hB h1
  have hr0 : restr = [] := (gather_ok hrestr).2.2 rfl
  subst hr0
  by_contra hcon
  push Not at hcon
  obtain ⟨hin, hmu⟩ := hcon
  have hlt : j < sched.length := by
    obtain ⟨e, he, -⟩ := hs
    have := (List.getElem?_eq_some_iff.1 he).1
    omega
  have hej := List.getElem?_eq_getElem hlt
  have hstep := (hsch.get j _ hej).1
  have hsst : s ∈ B.stages := by
    obtain ⟨e, he, hse⟩ := hs
    exact ((hsch.get i e he).1.stage s hse).1
  have hmem := hstep.maximal s hsst (by
      rintro (h | ⟨k, hk, hks⟩)
      · exact h
      · have := stageAt_unique hsch.nodup.1 hs hks
        omega)
    (by
      rw [strip_cpython hrestr hsst]
      intro a ha
      rcases hin a ha with h | ⟨k, t, hk, ht, hat⟩
      · exact .inl h
      · exact .inr ⟨k, t, hk, ht, hat⟩)
    (by simp [runAfter])
    (by
      intro m hm hnr hav _ a ha ha' hsm has
      rcases hsch.all_done m hm with h | h
      · exact h
      · obtain ⟨k, hk⟩ := stageAt_iff.2 h
        refine hmu k m a ?_ hk (fun h => hsm h.symm) ?_ ha ha' has
        · by_contra hlt
          exact hnr (.inr ⟨k, by omega, hk⟩)
        · intro b hb
          rw [strip_cpython hrestr hm] at hav
          rcases hav b hb with h | ⟨k, t, hk, ht, hat⟩
          · exact .inl h
          · exact .inr ⟨k, t, hk, ht, hat⟩)
  have := stageAt_unique hsch.nodup.1 hs ⟨_, hej, hmem⟩
  omega

example : (build cpython noKind demo idOrder (.namedTuple [10])).1 = .ok [[0], [1], [3, 2]] ∧
    StageAt [[0], [1], [3, 2]] 2 3 := ⟨rfl, [3, 2], rfl, by simp⟩

/-! ### C117 -/

/-- The claim: when `build` reports missing inputs, no order of the stages would find all
inputs. -/
def MissingIsGenuine (kind : A → Kind S) (B : Builder S A) (π : SetOrder S) (init : InitArg A) :
    Prop :=
  (build cpython kind B π init).1 = .error .missingInputs →
    ¬ ∃ order : List S, order.Perm B.stages ∧ Runnable B.ins B.outs init.args order

/-- Stages 0 and 1 both read 10 and 11; stage 0 mutates 10, stage 1 mutates 11. -/
def deadlock : Builder Nat Nat where
  stages := [0, 1]
  ins := fun s => match s with | 0 => [10, 11] | 1 => [10, 11] | _ => []
  outs := fun s => match s with | 0 => [10] | 1 => [11] | _ => []

/-- **C117 is false of the code**: two stages that each mutate an argument the other reads hold
each other back; the build fails with "missing inputs" although every input is available from
the start, so that every order of the stages would do. -/
theorem C117_refuted : ¬ MissingIsGenuine noKind deadlock idOrder (.namedTuple [10, 11]) := by
  intro h
  refine h rfl ⟨[0, 1], .refl _, ?_⟩
  intro i s hi a ha
  left
  rcases i with _ | _ | i
  · simp only [List.getElem?_cons_zero, Option.some.injEq] at hi
    subst hi
    simpa [deadlock, InitArg.args] using ha
  · simp only [Nat.zero_add, List.getElem?_cons_succ, List.getElem?_cons_zero, Option.some.injEq] at hi
    subst hi
    simpa [deadlock, InitArg.args] using ha
  · simp at hi

/-- **C117, true part.** If mutations are not circular (the stages can be numbered so that
whoever reads an argument has a larger number than every other stage mutating it) and every
stage declares an output, then missing inputs are reported only if no order of the stages
would find all inputs.  Missing: circular mutations. -/
theorem C117_partial (kind : A → Kind S) (B : Builder S A)
    (hne : ∀ s ∈ B.stages, B.outs s ≠ []) (f : S → Nat)
    (hf : ∀ m ∈ B.stages, ∀ s ∈ B.stages, s ≠ m → ∀ a, a ∈ B.ins m → a ∈ B.outs m →
      a ∈ B.ins s → f m < f s)
    (π : SetOrder S) (init : InitArg A) : MissingIsGenuine kind B π init := by
  rintro h ⟨order, hperm, hrun⟩
  unfold build at h
  simp only at h
  split at h
  · rename_i e he
    simp only [Except.error.injEq] at h
    subst h
    unfold resolve at he
    split at he
    · rename_i e he'
      simp only [Except.error.injEq] at he
      subst he
      exact absurd (gather_error he').1 (by simp)
    · rename_i restr hr
      refine loop_not_missing hne f hf hperm ?_ (fun a ha => ha) (by simp) he
      intro i s hi
      refine ⟨?_, ?_⟩
      · rw [strip_cpython hr (hperm.mem_iff.1 (List.mem_of_getElem? hi))]
        exact hrun i s hi
      · have : restr = [] := (gather_ok hr).2.2 rfl
        subst this
        simp [runAfter]
  · split at h <;> cases h

example : (∀ s ∈ demo.stages, demo.outs s ≠ []) ∧
    (∀ m ∈ demo.stages, ∀ s ∈ demo.stages, s ≠ m → ∀ a, a ∈ demo.ins m → a ∈ demo.outs m →
      a ∈ demo.ins s → (fun s => s) m < (fun s => s) s) := by
  refine ⟨by decide, ?_⟩
  intro m hm s hs hne a h1 h2 h3
  have : ∀ m ∈ demo.stages, ∀ s ∈ demo.stages, s ≠ m → ∀ a ∈ demo.ins m, a ∈ demo.outs m →
      a ∈ demo.ins s → m < s := by decide
  exact this m hm s hs hne a h1 h2 h3
example : (build cpython noKind demo idOrder (.namedTuple [11])).1 = .error .missingInputs := rfl

end Verif.Builder
