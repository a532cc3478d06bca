import Verif.Builder.Lemmas
import Verif.Builder.Spec
import Mathlib.Data.List.Forall2
/-! Further helper lemmas: from rounds to schedules, determinism, completeness. -/
set_option autoImplicit false
set_option linter.unusedSectionVars false

namespace Verif.Builder

variable {S A : Type} [DecidableEq S] [DecidableEq A]
variable {rt : Runtime} {kind : A → Kind S} {B : Builder S A} {restr : List (S × S)}
  {π : SetOrder S}

theorem Sched.get {R : S → Prop} {V : A → Prop} {l : List (List S)}
    (h : Sched rt kind B restr R V l) : ∀ i e, l[i]? = some e →
      StepOK rt kind B restr (fun s => R s ∨ ∃ j, j < i ∧ StageAt l j s)
        (fun a => V a ∨ ∃ j t, j < i ∧ StageAt l j t ∧ a ∈ B.outs t) e ∧ e ≠ [] := by
  induction h with
  | nil h => intro i e he; simp at he
  | @cons R V e0 rest step ne tail ih =>
    intro i e he
    cases i with
    | zero =>
      simp only [List.getElem?_cons_zero, Option.some.injEq] at he
      subst he
      refine ⟨?_, ne⟩
      have e1 : (fun s => R s ∨ ∃ j, j < 0 ∧ StageAt (e0 :: rest) j s) = R := by
        funext s; simp
      have e2 : (fun a => V a ∨ ∃ j t, j < 0 ∧ StageAt (e0 :: rest) j t ∧ a ∈ B.outs t) = V := by
        funext s; simp
      rw [e1, e2]
      exact step
    | succ i =>
      simp only [List.getElem?_cons_succ] at he
      obtain ⟨h1, h2⟩ := ih i e he
      refine ⟨?_, h2⟩
      have e1 : (fun s => R s ∨ ∃ j, j < i + 1 ∧ StageAt (e0 :: rest) j s) =
          (fun s => (R s ∨ s ∈ e0) ∨ ∃ j, j < i ∧ StageAt rest j s) := by
        funext s
        apply propext
        constructor
        · rintro (h | ⟨j, hj, e', he', hs⟩)
          · exact .inl (.inl h)
          · cases j with
            | zero =>
              simp only [List.getElem?_cons_zero, Option.some.injEq] at he'
              subst he'
              exact .inl (.inr hs)
            | succ j => exact .inr ⟨j, by omega, e', by simpa using he', hs⟩
        · rintro ((h | h) | ⟨j, hj, e', he', hs⟩)
          · exact .inl h
          · exact .inr ⟨0, by omega, e0, by simp, h⟩
          · exact .inr ⟨j + 1, by omega, e', by simpa using he', hs⟩
      have e2 : (fun a => V a ∨ ∃ j t, j < i + 1 ∧ StageAt (e0 :: rest) j t ∧ a ∈ B.outs t) =
          (fun a => (V a ∨ ∃ t ∈ e0, a ∈ B.outs t) ∨
            ∃ j t, j < i ∧ StageAt rest j t ∧ a ∈ B.outs t) := by
        funext a
        apply propext
        constructor
        · rintro (h | ⟨j, t, hj, ⟨e', he', hs⟩, ha⟩)
          · exact .inl (.inl h)
          · cases j with
            | zero =>
              simp only [List.getElem?_cons_zero, Option.some.injEq] at he'
              subst he'
              exact .inl (.inr ⟨t, hs, ha⟩)
            | succ j => exact .inr ⟨j, t, by omega, ⟨e', by simpa using he', hs⟩, ha⟩
        · rintro ((h | ⟨t, h, ha⟩) | ⟨j, t, hj, ⟨e', he', hs⟩, ha⟩)
          · exact .inl h
          · exact .inr ⟨0, t, by omega, ⟨e0, by simp, h⟩, ha⟩
          · exact .inr ⟨j + 1, t, by omega, ⟨e', by simpa using he', hs⟩, ha⟩
      rw [e1, e2]
      exact h1

theorem Sched.all_done {R : S → Prop} {V : A → Prop} {l : List (List S)}
    (h : Sched rt kind B restr R V l) : ∀ s ∈ B.stages, R s ∨ ∃ e ∈ l, s ∈ e := by
  induction h with
  | nil h => exact fun s hs => .inl (h s hs)
  | @cons R V e0 rest step ne tail ih =>
    intro s hs
    rcases ih s hs with (h | h) | ⟨e, he, h⟩
    · exact .inl h
    · exact .inr ⟨e0, by simp, h⟩
    · exact .inr ⟨e, by simp [he], h⟩

theorem Sched.nodup {R : S → Prop} {V : A → Prop} {l : List (List S)}
    (h : Sched rt kind B restr R V l) : l.flatten.Nodup ∧ ∀ s ∈ l.flatten, ¬ R s := by
  induction h with
  | nil h => simp
  | @cons R V e0 rest step ne tail ih =>
    simp only [List.flatten_cons, List.nodup_append, List.mem_append]
    refine ⟨⟨step.nodup, ih.1, ?_⟩, ?_⟩
    · intro a ha b hb hab
      subst hab
      exact ih.2 a hb (.inr ha)
    · rintro s (hs | hs)
      · exact (step.stage s hs).2
      · exact fun hr => ih.2 s hs (.inl hr)

theorem stageAt_iff {l : List (List S)} {s : S} :
    (∃ i, StageAt l i s) ↔ ∃ e ∈ l, s ∈ e := by
  constructor
  · rintro ⟨i, e, he, hs⟩
    exact ⟨e, List.mem_of_getElem? he, hs⟩
  · rintro ⟨e, he, hs⟩
    obtain ⟨i, hi⟩ := List.getElem?_of_mem he
    exact ⟨i, e, hi, hs⟩

/-- A stage has one position in a duplicate-free schedule. -/
theorem stageAt_unique {l : List (List S)} (h : l.flatten.Nodup) {i j : Nat} {s : S}
    (hi : StageAt l i s) (hj : StageAt l j s) : i = j := by
  induction l generalizing i j with
  | nil => obtain ⟨e, he, _⟩ := hi; simp at he
  | cons e0 rest ih =>
    simp only [List.flatten_cons, List.nodup_append] at h
    obtain ⟨h1, h2, h3⟩ := h
    obtain ⟨ei, hei, hsi⟩ := hi
    obtain ⟨ej, hej, hsj⟩ := hj
    have later : ∀ {k : Nat} {e : List S}, rest[k]? = some e → s ∈ e → s ∈ rest.flatten := by
      intro k e hk hs
      exact List.mem_flatten.2 ⟨e, List.mem_of_getElem? hk, hs⟩
    cases i with
    | zero =>
      cases j with
      | zero => rfl
      | succ j =>
        simp only [List.getElem?_cons_zero, Option.some.injEq] at hei
        subst hei
        exact absurd rfl (h3 s hsi s (later (by simpa using hej) hsj))
    | succ i =>
      cases j with
      | zero =>
        simp only [List.getElem?_cons_zero, Option.some.injEq] at hej
        subst hej
        exact absurd rfl (h3 s hsj s (later (by simpa using hei) hsi))
      | succ j =>
        congr 1
        exact ih h2 ⟨ei, by simpa using hei, hsi⟩ ⟨ej, by simpa using hej, hsj⟩

theorem gather_ok {l : List (S × A)} {r : List (S × S)}
    (h : gatherRestrictions rt kind l = .ok r) :
    (∀ p ∈ l, kind p.2 ≠ .beforeClass ∧ kind p.2 ≠ .afterClass) ∧
    (rt.aliasIsType = true → ∀ p ∈ l, ∀ t, (kind p.2 = .beforeAlias t → (p.1, t) ∈ r) ∧
      (kind p.2 = .afterAlias t → (t, p.1) ∈ r)) ∧
    (rt.aliasIsType = false → r = []) := by
  induction l generalizing r with
  | nil => simp [gatherRestrictions] at h; subst h; simp
  | cons p rest ih =>
    obtain ⟨s, a⟩ := p
    unfold gatherRestrictions at h
    split at h
    · cases h
    · rename_i r0 hr0
      split at h
      · cases h
      · rename_i rs hrs
        cases h
        obtain ⟨i1, i2, i3⟩ := ih hrs
        unfold argRestrictions at hr0
        refine ⟨?_, ?_, ?_⟩
        · intro p hp
          rcases List.mem_cons.1 hp with h | h
          · subst h
            constructor <;> intro hk <;> simp [hk] at hr0
          · exact i1 p h
        · intro hal p hp t
          rcases List.mem_cons.1 hp with h | h
          · subst h
            constructor <;> intro hk <;> simp [hk, hal] at hr0 <;> subst hr0 <;> simp
          · obtain ⟨j1, j2⟩ := i2 hal p h t
            exact ⟨fun hk => List.mem_append_right _ (j1 hk),
              fun hk => List.mem_append_right _ (j2 hk)⟩
        · intro hal
          rw [i3 hal, List.append_nil]
          cases hk : kind a <;> simp [hk, hal] at hr0 <;> first | exact hr0.symm | exact hr0

theorem gather_error {l : List (S × A)} {e : BuildError}
    (h : gatherRestrictions rt kind l = .error e) :
    e = .indexError ∧ ∃ p ∈ l, kind p.2 = .beforeClass ∨ kind p.2 = .afterClass := by
  induction l with
  | nil => simp [gatherRestrictions] at h
  | cons p rest ih =>
    obtain ⟨s, a⟩ := p
    unfold gatherRestrictions at h
    split at h
    · rename_i e' he
      cases h
      unfold argRestrictions at he
      cases hk : kind a <;> simp [hk] at he
      · split at he <;> cases he
      · split at he <;> cases he
      · exact ⟨he.symm, (s, a), by simp, .inl hk⟩
      · exact ⟨he.symm, (s, a), by simp, .inr hk⟩
    · split at h
      · rename_i e' he
        cases h
        obtain ⟨h1, p, hp, h2⟩ := ih he
        exact ⟨h1, p, by simp [hp], h2⟩
      · cases h

theorem restrictions_mem {s : S} {a : A} (hs : s ∈ B.stages) (ha : a ∈ B.ins s) :
    (s, a) ∈ (B.stages.flatMap fun s => (B.ins s).map fun a => (s, a)) :=
  List.mem_flatMap.2 ⟨s, hs, List.mem_map.2 ⟨a, ha, rfl⟩⟩

/-- Under CPython nothing is stripped from the inputs of the stages of a builder whose
restrictions could be computed. -/
theorem strip_cpython (h : orderingRestrictions cpython kind B = .ok restr) {s : S}
    (hs : s ∈ B.stages) : strip cpython kind (B.ins s) = B.ins s := by
  unfold strip
  rw [List.filter_eq_self]
  intro a ha
  obtain ⟨h1, h2⟩ := (gather_ok h).1 (s, a) (restrictions_mem hs ha)
  cases hk : kind a <;> simp [isBefore, isAfter, cpython, hk] at h1 h2 ⊢

theorem build_ok {init : InitArg A} {sched : List (List S)}
    (h : (build rt kind B π init).1 = .ok sched) :
    (resolve rt kind B π init.args).out = .ok sched ∧
      checkRunnable B (resolve rt kind B π init.args).avail sched = true := by
  unfold build at h
  simp only at h
  split at h
  · cases h
  · rename_i sched' hs
    split at h
    · rename_i hc
      cases h
      exact ⟨hs, hc⟩
    · cases h

theorem resolve_ok {init : List A} {sched : List (List S)}
    (h : (resolve rt kind B π init).out = .ok sched) :
    ∃ restr, orderingRestrictions rt kind B = .ok restr ∧
      resolve rt kind B π init = loop rt kind B restr π (B.stages.length + 1) 0 [] init := by
  unfold resolve at h ⊢
  split at h
  · cases h
  · rename_i restr hr
    exact ⟨restr, hr, rfl⟩

/-- The schedule of a successful resolution, with the facts about every element. -/
theorem resolve_sched (hB : B.stages.Nodup) {init : List A} {sched : List (List S)}
    (h : (resolve rt kind B π init).out = .ok sched) :
    ∃ restr, orderingRestrictions rt kind B = .ok restr ∧
      Sched rt kind B restr (fun _ => False) (· ∈ init) sched ∧
      ∀ a, a ∈ (resolve rt kind B π init).avail ↔
        a ∈ init ∨ ∃ e ∈ sched, ∃ t ∈ e, a ∈ B.outs t := by
  obtain ⟨restr, hr, heq⟩ := resolve_ok h
  rw [heq] at h
  obtain ⟨h1, h2⟩ := loop_sched hB h
  rw [heq]
  exact ⟨restr, hr, h1.congr (by simp) (by simp), h2⟩

theorem checkRunnable_mem {avail : List A} {sched : List (List S)}
    (h : checkRunnable B avail sched = true) {i : Nat} {s : S} (hs : StageAt sched i s) {a : A}
    (ha : a ∈ B.ins s) :
    a ∈ avail ∨ ∃ e ∈ sched, ∃ t ∈ e, a ∈ B.outs t := by
  induction sched generalizing avail i with
  | nil => obtain ⟨e, he, _⟩ := hs; simp at he
  | cons e0 rest ih =>
    unfold checkRunnable at h
    rw [Bool.and_eq_true] at h
    obtain ⟨h1, h2⟩ := h
    obtain ⟨e, he, hse⟩ := hs
    cases i with
    | zero =>
      simp only [List.getElem?_cons_zero, Option.some.injEq] at he
      subst he
      rw [List.all_eq_true] at h1
      have := h1 s hse
      rw [List.all_eq_true] at this
      exact .inl (by simpa using this a ha)
    | succ i =>
      rcases ih h2 ⟨e, by simpa using he, hse⟩ with h | ⟨e', he', t, ht, hat⟩
      · rcases List.mem_append.1 h with h | h
        · exact .inl h
        · obtain ⟨t, ht, hat⟩ := List.mem_flatMap.1 h
          exact .inr ⟨e0, by simp, t, ht, hat⟩
      · exact .inr ⟨e', by simp [he'], t, ht, hat⟩

theorem checkRunnable_of_subset {avail : List A} {sched : List (List S)}
    (h : ∀ e ∈ sched, ∀ s ∈ e, ∀ a ∈ B.ins s, a ∈ avail) :
    checkRunnable B avail sched = true := by
  induction sched generalizing avail with
  | nil => rfl
  | cons e0 rest ih =>
    unfold checkRunnable
    rw [Bool.and_eq_true]
    refine ⟨?_, ih ?_⟩
    · rw [List.all_eq_true]
      intro s hs
      rw [List.all_eq_true]
      intro a ha
      simpa using h e0 (by simp) s hs a ha
    · intro e he s hs a ha
      exact List.mem_append_left _ (h e (by simp [he]) s hs a ha)

/-! ### Determinism -/

theorem any_congr_mem {α : Type} {l₁ l₂ : List α} {p q : α → Bool}
    (h : ∀ x, x ∈ l₁ ↔ x ∈ l₂) (hp : ∀ x, p x = q x) : l₁.any p = l₂.any q := by
  rw [Bool.eq_iff_iff, List.any_eq_true, List.any_eq_true]
  simp only [h, hp]

/-- Relation between the outcomes of one round in two runs. -/
inductive RoundRel : Except BuildError (List S) → Except BuildError (List S) → Prop
  | error (e : BuildError) : RoundRel (.error e) (.error e)
  | ok (l₁ l₂ : List S) (h : l₁.Perm l₂) : RoundRel (.ok l₁) (.ok l₂)

variable {B₁ B₂ : Builder S A} {π₁ π₂ : SetOrder S}

theorem mutatingCheck_rel (hi : B₁.ins = B₂.ins) (ho : B₁.outs = B₂.outs) {l₁ l₂ : List S}
    (h : l₁.Perm l₂) : RoundRel (mutatingCheck B₁ l₁) (mutatingCheck B₂ l₂) := by
  have hma : mutatingArgs B₁ = mutatingArgs B₂ := by
    funext s; simp [mutatingArgs, hi, ho]
  have him : isMutating B₁ = isMutating B₂ := by
    funext s; simp [isMutating, hma]
  have hmcr : (l₁.filter (isMutating B₂)).Perm (l₂.filter (isMutating B₂)) := h.filter _
  unfold mutatingCheck
  simp only [him, hma, hi]
  have he : (l₁.filter (isMutating B₂)).isEmpty = (l₂.filter (isMutating B₂)).isEmpty := by
    rw [Bool.eq_iff_iff, List.isEmpty_iff, List.isEmpty_iff]
    constructor
    · intro h'; rw [h'] at hmcr; exact hmcr.symm.eq_nil
    · intro h'; rw [h'] at hmcr; exact hmcr.eq_nil
  rw [he]
  split
  · exact .ok _ _ h
  · rw [any_congr_mem (l₂ := l₂.filter (isMutating B₂)) (fun x => hmcr.mem_iff)
      (fun x => any_congr_mem (l₂ := l₂.filter (isMutating B₂)) (fun y => hmcr.mem_iff)
        (fun y => rfl))]
    split
    · exact .error _
    · refine .ok _ _ ?_
      have : (fun s => ((B₂.ins s).filter fun a =>
          decide (a ∈ (l₁.filter (isMutating B₂)).flatMap (mutatingArgs B₂)) &&
            !(isMutating B₂ s && decide (a ∈ mutatingArgs B₂ s))).isEmpty) =
          (fun s => ((B₂.ins s).filter fun a =>
          decide (a ∈ (l₂.filter (isMutating B₂)).flatMap (mutatingArgs B₂)) &&
            !(isMutating B₂ s && decide (a ∈ mutatingArgs B₂ s))).isEmpty) := by
        funext s
        congr 2
        funext a
        congr 1
        apply decide_eq_decide.2
        simp only [List.mem_flatMap, hmcr.mem_iff]
      rw [this]
      exact h.filter _

theorem round_rel (hs : B₁.stages.Perm B₂.stages) (hi : B₁.ins = B₂.ins)
    (ho : B₁.outs = B₂.outs) {restr₁ restr₂ : List (S × S)}
    (hr : ∀ p, p ∈ restr₁ ↔ p ∈ restr₂) {n : Nat} {res₁ res₂ : List S} {av₁ av₂ : List A}
    (hres : ∀ s, s ∈ res₁ ↔ s ∈ res₂) (hav : ∀ a, a ∈ av₁ ↔ a ∈ av₂) :
    RoundRel (round rt kind B₁ restr₁ π₁ n res₁ av₁) (round rt kind B₂ restr₂ π₂ n res₂ av₂) := by
  have hcan : ((π₁.order n (unresolved B₁ res₁)).filter
      (stageResolves rt kind B₁ restr₁ res₁ av₁)).Perm
      ((π₂.order n (unresolved B₂ res₂)).filter
      (stageResolves rt kind B₂ restr₂ res₂ av₂)) := by
    have h1 : stageResolves rt kind B₁ restr₁ res₁ av₁ = stageResolves rt kind B₂ restr₂ res₂ av₂ := by
      funext s
      rw [Bool.eq_iff_iff, stageResolves_iff, stageResolves_iff]
      simp only [hi, hav, runAfter, List.mem_map, List.mem_filter, hr, hres]
    rw [h1]
    refine List.Perm.filter _ ?_
    refine (π₁.perm n _).trans (List.Perm.trans ?_ (π₂.perm n _).symm)
    unfold unresolved
    have h2 : (fun s => decide (s ∉ res₁)) = (fun s => decide (s ∉ res₂)) := by
      funext s
      simp only [hres]
    rw [h2]
    exact hs.filter _
  unfold round
  simp only
  have hm := mutatingCheck_rel hi ho hcan
  revert hm
  generalize mutatingCheck B₁ _ = r₁
  generalize mutatingCheck B₂ _ = r₂
  intro hm
  cases hm with
  | error e => exact .error e
  | ok l₁ l₂ hp =>
    simp only
    rw [any_congr_mem (l₂ := l₂) (fun x => hp.mem_iff)
      (fun x => any_congr_mem (l₂ := l₂) (fun y => hp.mem_iff) (fun y => rfl)), ho]
    split
    · exact .error _
    · exact .ok _ _ hp

theorem loop_rel (hs : B₁.stages.Perm B₂.stages) (hi : B₁.ins = B₂.ins)
    (ho : B₁.outs = B₂.outs) {restr₁ restr₂ : List (S × S)}
    (hr : ∀ p, p ∈ restr₁ ↔ p ∈ restr₂) {fuel n : Nat} {res₁ res₂ : List S} {av₁ av₂ : List A}
    (hres : ∀ s, s ∈ res₁ ↔ s ∈ res₂) (hav : ∀ a, a ∈ av₁ ↔ a ∈ av₂) :
    SameOutcome (loop rt kind B₁ restr₁ π₁ fuel n res₁ av₁).out
      (loop rt kind B₂ restr₂ π₂ fuel n res₂ av₂).out ∧
    ∀ a, a ∈ (loop rt kind B₁ restr₁ π₁ fuel n res₁ av₁).avail ↔
      a ∈ (loop rt kind B₂ restr₂ π₂ fuel n res₂ av₂).avail := by
  induction fuel generalizing n res₁ res₂ av₁ av₂ with
  | zero => exact ⟨.error _, hav⟩
  | succ fuel ih =>
    have hun : ∀ {r₁ r₂ : List S}, (∀ s, s ∈ r₁ ↔ s ∈ r₂) →
        (unresolved B₁ r₁).isEmpty = (unresolved B₂ r₂).isEmpty := by
      intro r₁ r₂ h
      rw [Bool.eq_iff_iff, List.isEmpty_iff, List.isEmpty_iff,
        List.eq_nil_iff_forall_not_mem, List.eq_nil_iff_forall_not_mem]
      simp only [mem_unresolved, hs.mem_iff, h]
    unfold loop
    simp only
    rw [hun hres]
    split
    · exact ⟨.ok _ _ .nil, hav⟩
    · have hround := round_rel (rt := rt) (kind := kind) (π₁ := π₁) (π₂ := π₂) hs hi ho hr
        (n := n) hres hav
      revert hround
      generalize round rt kind B₁ restr₁ π₁ n res₁ av₁ = r₁
      generalize round rt kind B₂ restr₂ π₂ n res₂ av₂ = r₂
      intro hround
      cases hround with
      | error e => exact ⟨.error e, hav⟩
      | ok l₁ l₂ hp =>
        simp only
        have hres' : ∀ s, s ∈ res₁ ++ l₁.filter (fun s => !(B₁.outs s).isEmpty) ↔
            s ∈ res₂ ++ l₂.filter (fun s => !(B₂.outs s).isEmpty) := by
          intro s
          simp only [List.mem_append, List.mem_filter, hres, hp.mem_iff, ho]
        have hav' : ∀ a, a ∈ av₁ ++ l₁.flatMap B₁.outs ↔ a ∈ av₂ ++ l₂.flatMap B₂.outs := by
          intro a
          simp only [List.mem_append, List.mem_flatMap, hav, hp.mem_iff, ho]
        have hel : (π₁.order n l₁).Perm (π₂.order n l₂) :=
          (π₁.perm n l₁).trans (hp.trans (π₂.perm n l₂).symm)
        rw [any_congr_mem (q := fun s => decide (s ∉ res₂)) hres'
          (fun s => decide_eq_decide.2 (not_congr (hres s))), hun hres']
        split
        · obtain ⟨h1, h2⟩ := ih (n := n + 1) hres' hav'
          revert h1 h2
          generalize loop rt kind B₁ restr₁ π₁ fuel (n + 1) _ _ = L₁
          generalize loop rt kind B₂ restr₂ π₂ fuel (n + 1) _ _ = L₂
          intro h1 h2
          cases L₁ with
          | mk o₁ a₁ =>
            cases L₂ with
            | mk o₂ a₂ =>
              simp only at h1 h2 ⊢
              cases h1 with
              | error e => exact ⟨.error e, h2⟩
              | ok m₁ m₂ hm => exact ⟨.ok _ _ (.cons hel hm), h2⟩
        · split
          · exact ⟨.ok _ _ (.cons hel .nil), hav'⟩
          · exact ⟨.error _, hav'⟩

theorem gather_mem {l : List (S × A)} {r : List (S × S)}
    (h : gatherRestrictions rt kind l = .ok r) (q : S × S) :
    q ∈ r ↔ ∃ p ∈ l, ∃ rs, argRestrictions rt kind p.1 p.2 = .ok rs ∧ q ∈ rs := by
  induction l generalizing r with
  | nil => simp [gatherRestrictions] at h; subst h; simp
  | cons p rest ih =>
    obtain ⟨s, a⟩ := p
    unfold gatherRestrictions at h
    split at h
    · cases h
    · rename_i r0 hr0
      split at h
      · cases h
      · rename_i rs hrs
        cases h
        rw [List.mem_append, ih hrs]
        constructor
        · rintro (h | ⟨p, hp, rs', h1, h2⟩)
          · exact ⟨(s, a), by simp, r0, hr0, h⟩
          · exact ⟨p, by simp [hp], rs', h1, h2⟩
        · rintro ⟨p, hp, rs', h1, h2⟩
          rcases List.mem_cons.1 hp with h | h
          · subst h
            rw [hr0] at h1
            cases h1
            exact .inl h2
          · exact .inr ⟨p, h, rs', h1, h2⟩

theorem gather_class {l : List (S × A)} {p : S × A} (hp : p ∈ l)
    (hk : kind p.2 = .beforeClass ∨ kind p.2 = .afterClass) :
    gatherRestrictions rt kind l = .error .indexError := by
  cases h : gatherRestrictions rt kind l with
  | error e => rw [(gather_error h).1]
  | ok r =>
    obtain ⟨h1, h2⟩ := (gather_ok h).1 p hp
    rcases hk with h | h
    · exact absurd h h1
    · exact absurd h h2

theorem restrictions_rel (hs : B₁.stages.Perm B₂.stages) (hi : B₁.ins = B₂.ins) :
    (∃ e, orderingRestrictions rt kind B₁ = .error e ∧ orderingRestrictions rt kind B₂ = .error e) ∨
    (∃ r₁ r₂, orderingRestrictions rt kind B₁ = .ok r₁ ∧ orderingRestrictions rt kind B₂ = .ok r₂ ∧
      ∀ p, p ∈ r₁ ↔ p ∈ r₂) := by
  have hmem : ∀ p, p ∈ (B₁.stages.flatMap fun s => (B₁.ins s).map fun a => (s, a)) ↔
      p ∈ (B₂.stages.flatMap fun s => (B₂.ins s).map fun a => (s, a)) := by
    intro p
    simp only [List.mem_flatMap, hs.mem_iff, hi]
  unfold orderingRestrictions
  cases h₁ : gatherRestrictions rt kind (B₁.stages.flatMap fun s => (B₁.ins s).map fun a => (s, a))
    with
  | error e =>
    left
    obtain ⟨he, p, hp, hk⟩ := gather_error h₁
    subst he
    exact ⟨_, rfl, gather_class ((hmem p).1 hp) hk⟩
  | ok r₁ =>
    right
    cases h₂ : gatherRestrictions rt kind (B₂.stages.flatMap fun s => (B₂.ins s).map fun a => (s, a))
      with
    | error e =>
      obtain ⟨_, p, hp, hk⟩ := gather_error h₂
      rw [gather_class ((hmem p).2 hp) hk] at h₁
      cases h₁
    | ok r₂ =>
      refine ⟨r₁, r₂, rfl, rfl, ?_⟩
      intro q
      rw [gather_mem h₁, gather_mem h₂]
      simp only [hmem]

theorem checkRunnable_rel (hi : B₁.ins = B₂.ins) (ho : B₁.outs = B₂.outs) {av₁ av₂ : List A}
    {l₁ l₂ : List (List S)} (h : List.Forall₂ List.Perm l₁ l₂) (hav : ∀ a, a ∈ av₁ ↔ a ∈ av₂) :
    checkRunnable B₁ av₁ l₁ = checkRunnable B₂ av₂ l₂ := by
  induction h generalizing av₁ av₂ with
  | nil => rfl
  | @cons e₁ e₂ r₁ r₂ he hr ih =>
    unfold checkRunnable
    rw [ih (av₁ := av₁ ++ e₁.flatMap B₁.outs) (av₂ := av₂ ++ e₂.flatMap B₂.outs)]
    · congr 1
      rw [Bool.eq_iff_iff, List.all_eq_true, List.all_eq_true]
      simp only [List.all_eq_true, he.mem_iff, hi, decide_eq_true_eq, hav]
    · intro a
      simp only [List.mem_append, List.mem_flatMap, he.mem_iff, hav, ho]

/-- Resolution and building do not depend on the order of the stages, on the enumeration of
sets, or on the representation of the initial set. -/
theorem build_rel (hs : B₁.stages.Perm B₂.stages) (hi : B₁.ins = B₂.ins)
    (ho : B₁.outs = B₂.outs) {i₁ i₂ : InitArg A} (hin : ∀ a, a ∈ i₁.args ↔ a ∈ i₂.args) :
    SameOutcome (build rt kind B₁ π₁ i₁).1 (build rt kind B₂ π₂ i₂).1 := by
  have hres : SameOutcome (resolve rt kind B₁ π₁ i₁.args).out (resolve rt kind B₂ π₂ i₂.args).out ∧
      ∀ a, a ∈ (resolve rt kind B₁ π₁ i₁.args).avail ↔
        a ∈ (resolve rt kind B₂ π₂ i₂.args).avail := by
    unfold resolve
    rcases restrictions_rel (rt := rt) (kind := kind) hs hi with ⟨e, h1, h2⟩ | ⟨r₁, r₂, h1, h2, h3⟩
    · rw [h1, h2]
      exact ⟨.error e, hin⟩
    · rw [h1, h2]
      simp only
      rw [hs.length_eq]
      exact loop_rel hs hi ho h3 (fun _ => Iff.rfl) hin
  obtain ⟨h1, h2⟩ := hres
  unfold build
  simp only
  revert h1 h2
  generalize resolve rt kind B₁ π₁ i₁.args = R₁
  generalize resolve rt kind B₂ π₂ i₂.args = R₂
  intro h1 h2
  cases R₁ with
  | mk o₁ a₁ =>
    cases R₂ with
    | mk o₂ a₂ =>
      simp only at h1 h2 ⊢
      cases h1 with
      | error e => exact .error e
      | ok m₁ m₂ hm =>
        simp only
        rw [checkRunnable_rel hi ho hm h2]
        split
        · exact .ok _ _ hm
        · exact .error _

end Verif.Builder
