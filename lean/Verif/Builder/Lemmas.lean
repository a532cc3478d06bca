import Verif.Builder.Model
import Mathlib.Data.List.Perm.Basic
import Mathlib.Data.List.Nodup
import Mathlib.Tactic.Tauto
/-! Helper lemmas about the builder model. -/
set_option autoImplicit false
set_option linter.unusedSectionVars false

namespace Verif.Builder

variable {S A : Type} [DecidableEq S] [DecidableEq A]
variable {rt : Runtime} {kind : A → Kind S} {B : Builder S A} {restr : List (S × S)}
  {π : SetOrder S}

omit [DecidableEq A] in
theorem mem_unresolved {resolved : List S} {s : S} :
    s ∈ unresolved B resolved ↔ s ∈ B.stages ∧ s ∉ resolved := by
  simp [unresolved]

omit [DecidableEq S] in
theorem mem_mutatingArgs {s : S} {a : A} :
    a ∈ mutatingArgs B s ↔ a ∈ B.ins s ∧ a ∈ B.outs s := by
  simp [mutatingArgs]

omit [DecidableEq S] in
theorem isMutating_iff {s : S} :
    isMutating B s = true ↔ ∃ a, a ∈ B.ins s ∧ a ∈ B.outs s := by
  unfold isMutating
  constructor
  · intro h
    rcases hm : mutatingArgs B s with _ | ⟨a, l⟩
    · simp [hm] at h
    · exact ⟨a, mem_mutatingArgs.1 (by simp [hm])⟩
  · rintro ⟨a, ha⟩
    have := mem_mutatingArgs.2 ha
    rcases hm : mutatingArgs B s with _ | ⟨b, l⟩
    · simp [hm] at this
    · simp

theorem stageResolves_iff {resolved : List S} {avail : List A} {s : S} :
    stageResolves rt kind B restr resolved avail s = true ↔
      (∀ a ∈ strip rt kind (B.ins s), a ∈ avail) ∧ (∀ t ∈ runAfter restr s, t ∈ resolved) := by
  simp [stageResolves]

/-- Facts about one successful mutating check. -/
theorem mutatingCheck_ok {canRun post : List S} (h : mutatingCheck B canRun = .ok post) :
    (∃ p : S → Bool, post = canRun.filter p) ∧
    (∀ m ∈ canRun, ∀ a, a ∈ B.ins m → a ∈ B.outs m → ∀ s ∈ post, s ≠ m → a ∉ B.ins s) ∧
    (∀ s ∈ canRun, (∀ m ∈ canRun, ∀ a, a ∈ B.ins m → a ∈ B.outs m → s ≠ m → a ∉ B.ins s) →
      s ∈ post) := by
  unfold mutatingCheck at h
  simp only at h
  split at h
  · rename_i hemp
    cases h
    refine ⟨⟨fun _ => true, by simp⟩, ?_, fun s hs _ => hs⟩
    intro m hm a ha ha' s hs hne _
    have : m ∈ canRun.filter (isMutating B) :=
      List.mem_filter.2 ⟨hm, isMutating_iff.2 ⟨a, ha, ha'⟩⟩
    rw [List.isEmpty_iff.1 hemp] at this
    cases this
  · split at h
    · cases h
    · rename_i hamb
      cases h
      refine ⟨⟨_, rfl⟩, ?_, ?_⟩
      · intro m hm a ha ha' s hs hne hin
        have hmm : m ∈ canRun.filter (isMutating B) :=
          List.mem_filter.2 ⟨hm, isMutating_iff.2 ⟨a, ha, ha'⟩⟩
        obtain ⟨hsc, hs'⟩ := List.mem_filter.1 hs
        rw [List.isEmpty_iff, List.filter_eq_nil_iff] at hs'
        have h1 := hs' a hin
        have hmut : a ∈ (canRun.filter (isMutating B)).flatMap (mutatingArgs B) :=
          List.mem_flatMap.2 ⟨m, hmm, mem_mutatingArgs.2 ⟨ha, ha'⟩⟩
        by_cases hsm : isMutating B s = true ∧ a ∈ mutatingArgs B s
        · apply hamb
          rw [List.any_eq_true]
          refine ⟨s, List.mem_filter.2 ⟨hsc, hsm.1⟩, ?_⟩
          rw [List.any_eq_true]
          refine ⟨m, hmm, ?_⟩
          rw [Bool.and_eq_true]
          refine ⟨by simpa using fun h => hne h.symm, ?_⟩
          rw [List.any_eq_true]
          exact ⟨a, hsm.2, by simpa using mem_mutatingArgs.2 ⟨ha, ha'⟩⟩
        · apply h1
          simp only [Bool.and_eq_true, decide_eq_true_eq, Bool.not_eq_true',
            Bool.and_eq_false_iff, decide_eq_false_iff_not]
          refine ⟨hmut, ?_⟩
          by_cases h2 : isMutating B s = true
          · right; intro h3; exact hsm ⟨h2, h3⟩
          · left; simpa using h2
      · intro s hs hfree
        refine List.mem_filter.2 ⟨hs, ?_⟩
        rw [List.isEmpty_iff, List.filter_eq_nil_iff]
        intro a hain hc
        simp only [Bool.and_eq_true, decide_eq_true_eq, Bool.not_eq_true',
          Bool.and_eq_false_iff, decide_eq_false_iff_not] at hc
        obtain ⟨hmut, hown⟩ := hc
        obtain ⟨m, hm, ha⟩ := List.mem_flatMap.1 hmut
        obtain ⟨hmc, hmm⟩ := List.mem_filter.1 hm
        have ha := mem_mutatingArgs.1 ha
        by_cases hsm : s = m
        · subst hsm
          rcases hown with h | h
          · rw [hmm] at h; cases h
          · exact h (mem_mutatingArgs.2 ha)
        · exact hfree m hmc a ha.1 ha.2 hsm hain

/-- What a successful round guarantees, in terms of predicates. -/
structure StepOK (rt : Runtime) (kind : A → Kind S) (B : Builder S A) (restr : List (S × S))
    (R : S → Prop) (V : A → Prop) (e : List S) : Prop where
  nodup : e.Nodup
  stage : ∀ s ∈ e, s ∈ B.stages ∧ ¬ R s
  inputs : ∀ s ∈ e, ∀ a ∈ strip rt kind (B.ins s), V a
  after : ∀ s ∈ e, ∀ t ∈ runAfter restr s, R t
  disjoint : ∀ s ∈ e, ∀ t ∈ e, s ≠ t → ∀ a, a ∈ B.outs s → a ∉ B.outs t
  mutation : ∀ m ∈ B.stages, ¬ R m → (∀ a ∈ strip rt kind (B.ins m), V a) →
    (∀ t ∈ runAfter restr m, R t) → ∀ a, a ∈ B.ins m → a ∈ B.outs m →
    ∀ s ∈ e, s ≠ m → a ∉ B.ins s
  maximal : ∀ s ∈ B.stages, ¬ R s → (∀ a ∈ strip rt kind (B.ins s), V a) →
    (∀ t ∈ runAfter restr s, R t) →
    (∀ m ∈ B.stages, ¬ R m → (∀ a ∈ strip rt kind (B.ins m), V a) →
      (∀ t ∈ runAfter restr m, R t) → ∀ a, a ∈ B.ins m → a ∈ B.outs m → s ≠ m → a ∉ B.ins s) →
    s ∈ e

theorem mem_canRun {n : Nat} {resolved : List S} {avail : List A} {s : S} :
    s ∈ (π.order n (unresolved B resolved)).filter
        (stageResolves rt kind B restr resolved avail) ↔
      s ∈ B.stages ∧ s ∉ resolved ∧ (∀ a ∈ strip rt kind (B.ins s), a ∈ avail) ∧
        (∀ t ∈ runAfter restr s, t ∈ resolved) := by
  rw [List.mem_filter, (π.perm n _).mem_iff, mem_unresolved, stageResolves_iff]
  tauto

theorem round_ok {n : Nat} {resolved : List S} {avail : List A} {post : List S}
    (hB : B.stages.Nodup) (h : round rt kind B restr π n resolved avail = .ok post) :
    StepOK rt kind B restr (· ∈ resolved) (· ∈ avail) post := by
  unfold round at h
  simp only at h
  split at h
  · cases h
  · rename_i post' hm
    split at h
    · cases h
    · rename_i hconf
      cases h
      obtain ⟨⟨p, hp⟩, hmut, hmax⟩ := mutatingCheck_ok hm
      have hnd : ((π.order n (unresolved B resolved)).filter
          (stageResolves rt kind B restr resolved avail)).Nodup :=
        ((π.perm n _).nodup_iff.2 (hB.filter _)).filter _
      have hsub : ∀ s ∈ post, s ∈ B.stages ∧ s ∉ resolved ∧
          (∀ a ∈ strip rt kind (B.ins s), a ∈ avail) ∧
          (∀ t ∈ runAfter restr s, t ∈ resolved) := by
        intro s hs
        rw [hp] at hs
        exact mem_canRun.1 (List.mem_filter.1 hs).1
      refine ⟨hp ▸ hnd.filter _, fun s hs => ⟨(hsub s hs).1, (hsub s hs).2.1⟩,
        fun s hs => (hsub s hs).2.2.1, fun s hs => (hsub s hs).2.2.2, ?_, ?_, ?_⟩
      · intro s hs t ht hne a ha ha'
        apply hconf
        rw [List.any_eq_true]
        refine ⟨s, hs, ?_⟩
        rw [List.any_eq_true]
        refine ⟨t, ht, ?_⟩
        rw [Bool.and_eq_true, List.any_eq_true]
        exact ⟨by simpa using fun h => hne h.symm, a, ha, by simpa using ha'⟩
      · intro m hm1 hm2 hm3 hm4 a ha ha' s hs hne
        exact hmut m (mem_canRun.2 ⟨hm1, hm2, hm3, hm4⟩) a ha ha' s hs hne
      · intro s h1 h2 h3 h4 hfree
        refine hmax s (mem_canRun.2 ⟨h1, h2, h3, h4⟩) ?_
        intro m hm a ha ha' hne
        obtain ⟨g1, g2, g3, g4⟩ := mem_canRun.1 hm
        exact hfree m g1 g2 g3 g4 a ha ha' hne

theorem StepOK.perm {R : S → Prop} {V : A → Prop} {e e' : List S}
    (h : StepOK rt kind B restr R V e) (hp : e'.Perm e) : StepOK rt kind B restr R V e' := by
  have hm : ∀ {s}, s ∈ e' → s ∈ e := fun hs => hp.mem_iff.1 hs
  exact ⟨hp.nodup_iff.2 h.nodup, fun s hs => h.stage s (hm hs), fun s hs => h.inputs s (hm hs),
    fun s hs => h.after s (hm hs), fun s hs t ht => h.disjoint s (hm hs) t (hm ht),
    fun m h1 h2 h3 h4 a ha ha' s hs => h.mutation m h1 h2 h3 h4 a ha ha' s (hm hs),
    fun s h1 h2 h3 h4 h5 => hp.mem_iff.2 (h.maximal s h1 h2 h3 h4 h5)⟩

/-- The rounds that can follow a state in which the stages `R` are resolved and the
arguments `V` available. -/
inductive Sched (rt : Runtime) (kind : A → Kind S) (B : Builder S A) (restr : List (S × S)) :
    (S → Prop) → (A → Prop) → List (List S) → Prop
  | nil {R : S → Prop} {V : A → Prop} (h : ∀ s ∈ B.stages, R s) : Sched rt kind B restr R V []
  | cons {R : S → Prop} {V : A → Prop} {e : List S} {rest : List (List S)}
      (step : StepOK rt kind B restr R V e) (ne : e ≠ [])
      (tail : Sched rt kind B restr (fun s => R s ∨ s ∈ e)
        (fun a => V a ∨ ∃ t ∈ e, a ∈ B.outs t) rest) :
      Sched rt kind B restr R V (e :: rest)

theorem loop_ok_outs {fuel n : Nat} {resolved : List S} {avail : List A}
    {sched : List (List S)} (h : (loop rt kind B restr π fuel n resolved avail).out = .ok sched) :
    ∀ s ∈ B.stages, s ∈ resolved ∨ B.outs s ≠ [] := by
  induction fuel generalizing n resolved avail sched with
  | zero => simp [loop] at h
  | succ fuel ih =>
    unfold loop at h
    simp only at h
    split at h
    · rename_i hu
      intro s hs
      by_cases hr : s ∈ resolved
      · exact .inl hr
      · have : s ∈ unresolved B resolved := mem_unresolved.2 ⟨hs, hr⟩
        rw [List.isEmpty_iff.1 hu] at this
        cases this
    · split at h
      · cases h
      · rename_i post hr
        have key : ∀ s, s ∈ resolved ++ post.filter (fun s => !(B.outs s).isEmpty) →
            s ∈ resolved ∨ B.outs s ≠ [] := by
          intro s hs
          rcases List.mem_append.1 hs with h | h
          · exact .inl h
          · right
            have := (List.mem_filter.1 h).2
            simpa using this
        split at h
        · split at h
          · cases h
          · rename_i rest hrest
            intro s hs
            rcases ih hrest s hs with h' | h'
            · exact key s h'
            · exact .inr h'
        · split at h
          · rename_i hu
            intro s hs
            by_cases hr : s ∈ resolved ++ post.filter (fun s => !(B.outs s).isEmpty)
            · exact key s hr
            · have : s ∈ unresolved B (resolved ++ post.filter (fun s => !(B.outs s).isEmpty)) :=
                mem_unresolved.2 ⟨hs, hr⟩
              rw [List.isEmpty_iff.1 hu] at this
              cases this
          · cases h

theorem Sched.congr {R R' : S → Prop} {V V' : A → Prop} {l : List (List S)}
    (h : Sched rt kind B restr R V l) (hR : ∀ s, R s ↔ R' s) (hV : ∀ a, V a ↔ V' a) :
    Sched rt kind B restr R' V' l := by
  have : R = R' := funext fun s => propext (hR s)
  have : V = V' := funext fun s => propext (hV s)
  subst_vars
  exact h

/-- Main lemma: a successful loop produces a schedule made of correct rounds. -/
theorem loop_sched (hB : B.stages.Nodup) {fuel n : Nat} {resolved : List S} {avail : List A}
    {sched : List (List S)} (h : (loop rt kind B restr π fuel n resolved avail).out = .ok sched) :
    Sched rt kind B restr (· ∈ resolved) (· ∈ avail) sched ∧
    ∀ a, a ∈ (loop rt kind B restr π fuel n resolved avail).avail ↔
      a ∈ avail ∨ ∃ e ∈ sched, ∃ t ∈ e, a ∈ B.outs t := by
  induction fuel generalizing n resolved avail sched with
  | zero => simp [loop] at h
  | succ fuel ih =>
    have houts := loop_ok_outs h
    unfold loop at h ⊢
    simp only at h ⊢
    split at h
    · rename_i hu
      simp only [hu, if_true]
      cases h
      refine ⟨.nil ?_, by simp⟩
      intro s hs
      by_contra hr
      have : s ∈ unresolved B resolved := mem_unresolved.2 ⟨hs, hr⟩
      rw [List.isEmpty_iff.1 hu] at this
      cases this
    · rename_i hu
      rw [if_neg hu]
      split at h
      · cases h
      · rename_i post hr
        have hstep := round_ok hB hr
        have hperm := π.perm n post
        have hstep' := hstep.perm hperm
        have hmemR : ∀ s, s ∈ resolved ++ post.filter (fun s => !(B.outs s).isEmpty) ↔
            s ∈ resolved ∨ s ∈ π.order n post := by
          intro s
          rw [List.mem_append, List.mem_filter, hperm.mem_iff]
          constructor
          · rintro (h | h)
            · exact .inl h
            · exact .inr h.1
          · rintro (h | h)
            · exact .inl h
            · right
              refine ⟨h, ?_⟩
              obtain ⟨h1, h2⟩ := hstep.stage s h
              have := (houts s h1).resolve_left h2
              simpa using this
        have hmemV : ∀ a, a ∈ avail ++ post.flatMap B.outs ↔
            a ∈ avail ∨ ∃ t ∈ π.order n post, a ∈ B.outs t := by
          intro a
          rw [List.mem_append, List.mem_flatMap]
          constructor
          · rintro (h | ⟨t, ht, h⟩)
            · exact .inl h
            · exact .inr ⟨t, hperm.mem_iff.2 ht, h⟩
          · rintro (h | ⟨t, ht, h⟩)
            · exact .inl h
            · exact .inr ⟨t, hperm.mem_iff.1 ht, h⟩
        split at h
        · rename_i hprog
          have hne : π.order n post ≠ [] := by
            intro hnil
            rw [List.any_eq_true] at hprog
            obtain ⟨s, hs, hs'⟩ := hprog
            have := (hmemR s).1 hs
            rw [hnil] at this
            simp at this hs'
            exact hs' this
          simp only [if_pos hprog]
          split at h
          · cases h
          · rename_i rest hrest
            cases h
            obtain ⟨h1, h2⟩ := ih hrest
            simp only [hrest]
            refine ⟨.cons hstep' hne (h1.congr hmemR hmemV), ?_⟩
            intro a
            rw [h2 a, hmemV a]
            simp only [List.mem_cons, exists_eq_or_imp, or_assoc]
        · rename_i hprog
          exfalso
          split at h
          · rename_i hu'
            apply hu
            rw [List.isEmpty_iff, List.eq_nil_iff_forall_not_mem]
            intro s hs
            obtain ⟨h1, h2⟩ := mem_unresolved.1 hs
            have h3 : s ∈ resolved ++ post.filter (fun s => !(B.outs s).isEmpty) := by
              by_contra h3
              have : s ∈ unresolved B (resolved ++ post.filter (fun s => !(B.outs s).isEmpty)) :=
                mem_unresolved.2 ⟨h1, h3⟩
              rw [List.isEmpty_iff.1 hu'] at this
              cases this
            apply hprog
            rw [List.any_eq_true]
            exact ⟨s, h3, by simpa using h2⟩
          · cases h

/-! ### Fuel -/

theorem loop_fuel {fuel n : Nat} {resolved : List S} {avail : List A}
    (hf : (unresolved B resolved).length < fuel) :
    (loop rt kind B restr π fuel n resolved avail).out ≠ .error .outOfFuel := by
  induction fuel generalizing n resolved avail with
  | zero => cases hf
  | succ fuel ih =>
    unfold loop
    simp only
    split
    · simp
    · split
      · rename_i e he
        intro h
        simp only [Except.error.injEq] at h
        subst h
        unfold round at he
        simp only at he
        split at he
        · rename_i e' hm
          cases he
          unfold mutatingCheck at hm
          simp only at hm
          split at hm
          · cases hm
          · split at hm <;> cases hm
        · split at he <;> cases he
      · rename_i post hr
        split
        · rename_i hprog
          have : (loop rt kind B restr π fuel (n + 1)
              (resolved ++ post.filter (fun s => !(B.outs s).isEmpty))
              (avail ++ post.flatMap B.outs)).out ≠ .error .outOfFuel := by
            apply ih
            rw [List.any_eq_true] at hprog
            obtain ⟨s, hs, hs'⟩ := hprog
            have hs'' : s ∉ resolved := by simpa using hs'
            have hsp : s ∈ post := by
              rcases List.mem_append.1 hs with h | h
              · exact absurd h hs''
              · exact (List.mem_filter.1 h).1
            have hst : s ∈ B.stages := by
              unfold round at hr
              simp only at hr
              split at hr
              · cases hr
              · rename_i hm
                split at hr
                · cases hr
                · cases hr
                  obtain ⟨⟨p, hp⟩, -⟩ := mutatingCheck_ok hm
                  rw [hp] at hsp
                  exact (mem_canRun.1 (List.mem_filter.1 hsp).1).1
            have hlt : (unresolved B (resolved ++ post.filter
                (fun s => !(B.outs s).isEmpty))).length < (unresolved B resolved).length := by
              have hsub : (unresolved B (resolved ++ post.filter
                  (fun s => !(B.outs s).isEmpty))).Sublist (unresolved B resolved) := by
                unfold unresolved
                apply List.monotone_filter_right
                intro t ht
                simp only [decide_eq_true_eq] at ht ⊢
                intro h
                exact ht (List.mem_append_left _ h)
              rcases Nat.lt_or_ge (unresolved B (resolved ++ post.filter
                  (fun s => !(B.outs s).isEmpty))).length (unresolved B resolved).length with h | h
              · exact h
              · have := hsub.eq_of_length_le h
                have hmem : s ∈ unresolved B resolved := mem_unresolved.2 ⟨hst, hs''⟩
                rw [← this] at hmem
                exact absurd hs (mem_unresolved.1 hmem).2
            omega
          split
          · rename_i e he
            intro h
            simp only [Except.error.injEq] at h
            subst h
            exact this he
          · simp
        · split <;> simp

end Verif.Builder
