import Verif.Builder.Lemmas3
import Mathlib.Tactic.ByContra
/-! Helper lemmas: resolving a builder to which one more stage has been added, whose outputs
nothing else declares. -/
set_option autoImplicit false
set_option linter.unusedSectionVars false

namespace Verif.Builder

variable {S A : Type} [DecidableEq S] [DecidableEq A]
variable {rt : Runtime} {kind : A → Kind S}

/-- What the simulation uses about the two builders. -/
structure Extends (B B' : Builder S A) (t : S) : Prop where
  stages : B'.stages = B.stages ++ [t]
  new : t ∉ B.stages
  ins : ∀ s, s ≠ t → B'.ins s = B.ins s
  outs : ∀ s, s ≠ t → B'.outs s = B.outs s
  apart : ∀ a ∈ B'.outs t, a ∉ B'.ins t
  fresh : ∀ a ∈ B'.outs t, ∀ s ∈ B.stages, a ∉ B.ins s ∧ a ∉ B.outs s
  writes : B'.outs t ≠ []

variable {B B' : Builder S A} {t : S}

theorem Extends.ne (h : Extends B B' t) {s : S} (hs : s ∈ B.stages) : s ≠ t := by
  rintro rfl; exact h.new hs

theorem Extends.mutArgs (h : Extends B B' t) {s : S} (hs : s ≠ t) :
    mutatingArgs B' s = mutatingArgs B s := by
  unfold mutatingArgs; rw [h.ins s hs, h.outs s hs]

theorem Extends.isMut (h : Extends B B' t) {s : S} (hs : s ≠ t) :
    isMutating B' s = isMutating B s := by
  unfold isMutating; rw [h.mutArgs hs]

theorem Extends.isMut_new (h : Extends B B' t) : isMutating B' t = false := by
  rw [Bool.eq_false_iff]
  intro hm
  obtain ⟨a, ha, ha'⟩ := isMutating_iff.1 hm
  exact h.apart a ha' ha

theorem mem_without {l : List S} {s : S} : s ∈ without t l ↔ s ∈ l ∧ s ≠ t := by
  simp [without]

theorem without_perm {l l' : List S} (h : l.Perm l') : (without t l).Perm (without t l') :=
  h.filter _

theorem without_filter {l : List S} {p : S → Bool} :
    without t (l.filter p) = (without t l).filter p := by
  unfold without
  rw [List.filter_filter, List.filter_filter]
  apply List.filter_congr
  intro s _
  rw [Bool.and_comm]

theorem without_self {l : List S} (h : t ∉ l) : without t l = l := by
  unfold without
  rw [List.filter_eq_self]
  intro s hs
  simp
  rintro rfl
  exact h hs

theorem any_any_false {l : List S} {p : S → S → Bool} :
    (l.any fun s => l.any fun o => p s o) = false ↔ ∀ s ∈ l, ∀ o ∈ l, p s o = false := by
  simp

theorem mutatingCheck_ext (h : Extends B B' t) {canRun canRun' post : List S}
    (hc : (without t canRun').Perm canRun) (hpost : mutatingCheck B canRun = .ok post) :
    ∃ post', mutatingCheck B' canRun' = .ok post' ∧ (without t post').Perm post ∧
      (canRun = [] → post' = canRun') := by
  have htc : ∀ s ∈ canRun, s ≠ t := fun s hs => (mem_without.1 (hc.mem_iff.2 hs)).2
  have hmc : ∀ s, s ≠ t → (s ∈ canRun' ↔ s ∈ canRun) := by
    intro s hs
    rw [← hc.mem_iff, mem_without]
    exact ⟨fun g => ⟨g, hs⟩, fun g => g.1⟩
  have hmcr : ∀ s, s ∈ canRun'.filter (isMutating B') ↔ s ∈ canRun.filter (isMutating B) := by
    intro s
    by_cases hs : s = t
    · subst hs
      simp only [List.mem_filter, h.isMut_new]
      constructor
      · rintro ⟨_, h'⟩; cases h'
      · rintro ⟨h', _⟩; exact absurd rfl (htc _ h')
    · rw [List.mem_filter, List.mem_filter, hmc s hs, h.isMut hs]
  have hmne : ∀ s ∈ canRun.filter (isMutating B), s ≠ t := fun s hs =>
    htc s (List.mem_filter.1 hs).1
  unfold mutatingCheck at hpost ⊢
  dsimp only at hpost ⊢
  have hempt : (canRun'.filter (isMutating B')).isEmpty = (canRun.filter (isMutating B)).isEmpty := by
    rw [Bool.eq_iff_iff, List.isEmpty_iff, List.isEmpty_iff, List.eq_nil_iff_forall_not_mem,
      List.eq_nil_iff_forall_not_mem]
    constructor
    · intro g s hs; exact g s ((hmcr s).2 hs)
    · intro g s hs; exact g s ((hmcr s).1 hs)
  rw [hempt]
  split at hpost
  · cases hpost
    rename_i he
    rw [if_pos he]
    exact ⟨_, rfl, hc, fun _ => rfl⟩
  · rename_i he
    rw [if_neg he]
    split at hpost
    · cases hpost
    · rename_i hconf
      cases hpost
      rw [Bool.not_eq_true] at hconf
      have hconf' : ((canRun'.filter (isMutating B')).any fun s =>
          (canRun'.filter (isMutating B')).any fun o =>
          (o != s) && (mutatingArgs B' s).any (fun a => a ∈ mutatingArgs B' o)) = false := by
        rw [any_any_false] at hconf ⊢
        intro s hs o ho
        have h1 := (hmcr s).1 hs
        have h2 := (hmcr o).1 ho
        rw [h.mutArgs (hmne s h1), h.mutArgs (hmne o h2)]
        exact hconf s h1 o h2
      rw [hconf']
      refine ⟨_, rfl, ?_, ?_⟩
      · rw [without_filter]
        refine List.Perm.trans (hc.filter _) (List.Perm.of_eq ?_)
        apply List.filter_congr
        intro s hs
        have hne := htc s hs
        rw [h.ins s hne, h.isMut hne, h.mutArgs hne]
        congr 1
        apply List.filter_congr
        intro a _
        congr 1
        rw [decide_eq_decide, List.mem_flatMap, List.mem_flatMap]
        constructor
        · rintro ⟨m, hm, ha⟩
          have h1 := (hmcr m).1 hm
          exact ⟨m, h1, by rwa [h.mutArgs (hmne m h1)] at ha⟩
        · rintro ⟨m, hm, ha⟩
          exact ⟨m, (hmcr m).2 hm, by rwa [h.mutArgs (hmne m hm)]⟩
      · intro hnil
        subst hnil
        simp at he

/-- The two loops are in step: the same other stages are resolved, and the same arguments
that the added stage does not write are available. -/
structure InStep (B' : Builder S A) (t : S) (res : List S) (av : List A) (res' : List S)
    (av' : List A) : Prop where
  stage : ∀ s, s ≠ t → (s ∈ res' ↔ s ∈ res)
  arg : ∀ a, a ∉ B'.outs t → (a ∈ av' ↔ a ∈ av)
  own : t ∉ res

theorem InStep.unresolved (h : Extends B B' t) {res res' : List S} {av av' : List A}
    (hs : InStep B' t res av res' av') :
    without t (unresolved B' res') = unresolved B res := by
  unfold Verif.Builder.unresolved
  rw [without_filter, h.stages]
  have : without t (B.stages ++ [t]) = B.stages := by
    unfold without
    rw [List.filter_append]
    have h1 := without_self (t := t) h.new
    unfold without at h1
    rw [h1]
    simp
  rw [this]
  apply List.filter_congr
  intro s hs'
  rw [decide_eq_decide, not_iff_not]
  exact hs.stage s (h.ne hs')

theorem InStep.canRun (h : Extends B B' t) {res res' : List S} {av av' : List A}
    (hs : InStep B' t res av res' av') (π π' : SetOrder S) (n n' : Nat) :
    (without t ((π'.order n' (Verif.Builder.unresolved B' res')).filter
      (stageResolves rt kind B' [] res' av'))).Perm
    ((π.order n (Verif.Builder.unresolved B res)).filter (stageResolves rt kind B [] res av)) := by
  rw [without_filter]
  have h1 : (without t (π'.order n' (Verif.Builder.unresolved B' res'))).Perm
      (π.order n (Verif.Builder.unresolved B res)) :=
    ((without_perm (π'.perm _ _)).trans (.of_eq (hs.unresolved h))).trans (π.perm _ _).symm
  refine (h1.filter _).trans (.of_eq ?_)
  apply List.filter_congr
  intro s hs'
  have hstage : s ∈ B.stages := (mem_unresolved.1 ((π.perm _ _).mem_iff.1 hs')).1
  rw [Bool.eq_iff_iff, stageResolves_iff, stageResolves_iff, h.ins s (h.ne hstage)]
  have hr : runAfter ([] : List (S × S)) s = [] := rfl
  simp only [hr, List.not_mem_nil, false_imp_iff, implies_true, and_true]
  have : ∀ a ∈ strip rt kind (B.ins s), (a ∈ av' ↔ a ∈ av) := by
    intro a ha
    apply hs.arg
    intro hf
    exact (h.fresh a hf s hstage).1 (List.mem_filter.1 ha).1
  constructor
  · intro g a ha; exact (this a ha).1 (g a ha)
  · intro g a ha; exact (this a ha).2 (g a ha)

theorem round_mem {restr : List (S × S)} {π : SetOrder S} {n : Nat} {res : List S} {av : List A}
    {post : List S} (h : round rt kind B restr π n res av = .ok post) :
    ∀ s ∈ post, s ∈ B.stages ∧ s ∉ res := by
  unfold round at h
  simp only at h
  split at h
  · cases h
  · rename_i p hp
    split at h
    · cases h
    · cases h
      obtain ⟨⟨q, hq⟩, _⟩ := mutatingCheck_ok hp
      intro s hs
      rw [hq] at hs
      have := (List.mem_filter.1 (List.mem_filter.1 hs).1).1
      exact mem_unresolved.1 ((π.perm _ _).mem_iff.1 this)

theorem round_ext (h : Extends B B' t) {res res' : List S} {av av' : List A}
    (hs : InStep B' t res av res' av') {π : SetOrder S} (π' : SetOrder S) {n : Nat} (n' : Nat)
    {post : List S} (hr : round rt kind B [] π n res av = .ok post) :
    ∃ post', round rt kind B' [] π' n' res' av' = .ok post' ∧ (without t post').Perm post := by
  have hmem := round_mem hr
  unfold round at hr ⊢
  simp only at hr ⊢
  split at hr
  · cases hr
  · rename_i p hp
    split at hr
    · cases hr
    · rename_i hconf
      cases hr
      obtain ⟨post', hp', hperm, _⟩ := mutatingCheck_ext h (hs.canRun h π π' n n') hp
      rw [hp']
      dsimp only
      have hin : ∀ s ∈ post', s ≠ t → s ∈ post := fun s hs' hne =>
        hperm.mem_iff.1 (mem_without.2 ⟨hs', hne⟩)
      have hconf' : (post'.any fun s => post'.any fun o =>
          (o != s) && (B'.outs s).any (fun a => a ∈ B'.outs o)) = false := by
        rw [Bool.not_eq_true, any_any_false] at hconf
        rw [any_any_false]
        intro s hs1 o ho
        by_cases hst : s = t
        · subst hst
          by_cases hot : o = s
          · simp [hot]
          · have : ((B'.outs s).any fun a => decide (a ∈ B'.outs o)) = false := by
              rw [List.any_eq_false]
              intro a ha
              rw [h.outs o hot]
              simpa using (h.fresh a ha o (hmem o (hin o ho hot)).1).2
            rw [this, Bool.and_false]
        · by_cases hot : o = t
          · subst hot
            have : ((B'.outs s).any fun a => decide (a ∈ B'.outs o)) = false := by
              rw [List.any_eq_false]
              intro a ha
              rw [h.outs s hst] at ha
              simpa using fun hf => (h.fresh a hf s (hmem s (hin s hs1 hst)).1).2 ha
            rw [this, Bool.and_false]
          · rw [h.outs s hst, h.outs o hot]
            exact hconf s (hin s hs1 hst) o (hin o ho hot)
      rw [hconf']
      exact ⟨post', rfl, hperm⟩

/-- The round in which only the added stage is left. -/
theorem round_last (h : Extends B B' t) {res res' : List S} {av av' : List A}
    (hs : InStep B' t res av res' av') (π' : SetOrder S) (n' : Nat)
    (hdone : Verif.Builder.unresolved B res = []) (ht : t ∉ res')
    (hins : ∀ a ∈ strip rt kind (B'.ins t), a ∈ av') :
    round rt kind B' [] π' n' res' av' = .ok [t] := by
  have hu : Verif.Builder.unresolved B' res' = [t] := by
    have h1 := hs.unresolved h
    rw [hdone] at h1
    unfold Verif.Builder.unresolved at h1 ⊢
    rw [h.stages, List.filter_append] at h1 ⊢
    have h2 : B.stages.filter (fun s => decide (s ∉ res')) = [] := by
      rw [List.filter_eq_nil_iff]
      intro s hs1 hs2
      have : s ∈ without t (B.stages.filter (fun s => decide (s ∉ res')) ++
          [t].filter (fun s => decide (s ∉ res'))) :=
        mem_without.2 ⟨List.mem_append_left _ (List.mem_filter.2 ⟨hs1, hs2⟩), h.ne hs1⟩
      rw [h1] at this
      cases this
    rw [h2]
    simp [ht]
  have ho : π'.order n' [t] = [t] := List.perm_singleton.1 (π'.perm _ _)
  have hres : stageResolves rt kind B' [] res' av' t = true := by
    rw [stageResolves_iff]
    exact ⟨hins, by intro x hx; cases hx⟩
  unfold round
  simp only [hu, ho]
  have hf : [t].filter (stageResolves rt kind B' [] res' av') = [t] := by simp [hres]
  rw [hf]
  have hm : mutatingCheck B' [t] = .ok [t] := by
    unfold mutatingCheck
    simp [h.isMut_new]
  rw [hm]
  simp

theorem InStep.next (h : Extends B B' t) {res res' : List S} {av av' : List A}
    (hs : InStep B' t res av res' av') {post post' : List S}
    (hp : (without t post').Perm post) :
    InStep B' t (res ++ post.filter (fun s => !(B.outs s).isEmpty)) (av ++ post.flatMap B.outs)
      (res' ++ post'.filter (fun s => !(B'.outs s).isEmpty)) (av' ++ post'.flatMap B'.outs) := by
  have hin : ∀ s, s ≠ t → (s ∈ post' ↔ s ∈ post) := by
    intro s hne
    rw [← hp.mem_iff, mem_without]
    exact ⟨fun g => ⟨g, hne⟩, fun g => g.1⟩
  have hnt : t ∉ post := fun g => (mem_without.1 (hp.mem_iff.2 g)).2 rfl
  refine ⟨?_, ?_, ?_⟩
  · intro s hne
    rw [List.mem_append, List.mem_append, hs.stage s hne, List.mem_filter, List.mem_filter,
      hin s hne, h.outs s hne]
  · intro a ha
    rw [List.mem_append, List.mem_append, hs.arg a ha, List.mem_flatMap, List.mem_flatMap]
    apply or_congr_right
    constructor
    · rintro ⟨s, hs1, has⟩
      have hne : s ≠ t := by rintro rfl; exact ha has
      exact ⟨s, (hin s hne).1 hs1, by rwa [h.outs s hne] at has⟩
    · rintro ⟨s, hs1, has⟩
      have hne : s ≠ t := by rintro rfl; exact hnt hs1
      exact ⟨s, (hin s hne).2 hs1, by rwa [h.outs s hne]⟩
  · rw [List.mem_append, List.mem_filter]
    rintro (g | ⟨g, _⟩)
    · exact hs.own g
    · exact hnt g

/-- The added stage only adds itself to the schedule. -/
theorem loop_ext (h : Extends B B' t) {π : SetOrder S} (π' : SetOrder S)
    {fuel : Nat} : ∀ {n n' fuel' : Nat} {res res' : List S} {av av' : List A}
    {sched : List (List S)}, InStep B' t res av res' av' →
    (∀ a ∈ strip rt kind (B'.ins t), a ∈ av ∨ ∃ s ∈ B.stages, s ∉ res ∧ a ∈ B.outs s) →
    (Verif.Builder.unresolved B' res').length < fuel' →
    (loop rt kind B [] π fuel n res av).out = .ok sched →
    ∃ sched', (loop rt kind B' [] π' fuel' n' res' av').out = .ok sched' ∧
      List.Forall₂ List.Perm sched (strike t sched') := by
  induction fuel with
  | zero => intro n n' fuel' res res' av av' sched _ _ _ hl; simp [loop] at hl
  | succ fuel ih =>
    intro n n' fuel' res res' av av' sched hs hfound hfuel hl
    obtain ⟨fuel', rfl⟩ : ∃ k, fuel' = k + 1 := ⟨fuel' - 1, by omega⟩
    unfold loop at hl
    simp only at hl
    split at hl
    · rename_i hu
      rw [List.isEmpty_iff] at hu
      cases hl
      by_cases ht : t ∈ res'
      · have hu' : Verif.Builder.unresolved B' res' = [] := by
          rw [List.eq_nil_iff_forall_not_mem]
          intro s hs'
          obtain ⟨h1, h2⟩ := mem_unresolved.1 hs'
          have hne : s ≠ t := by rintro rfl; exact h2 ht
          have : s ∈ without t (Verif.Builder.unresolved B' res') := mem_without.2 ⟨hs', hne⟩
          rw [hs.unresolved h, hu] at this
          cases this
        refine ⟨[], ?_, .nil⟩
        unfold loop
        simp [hu']
      · have hins : ∀ a ∈ strip rt kind (B'.ins t), a ∈ av' := by
          intro a ha
          have hna : a ∉ B'.outs t := fun g => h.apart a g (List.mem_filter.1 ha).1
          rcases hfound a ha with g | ⟨s, hs1, hs2, _⟩
          · exact (hs.arg a hna).2 g
          · have : s ∈ Verif.Builder.unresolved B res := mem_unresolved.2 ⟨hs1, hs2⟩
            rw [hu] at this
            cases this
        have hr := round_last h hs π' n' hu ht hins
        have hmem : t ∈ Verif.Builder.unresolved B' res' :=
          mem_unresolved.2 ⟨by rw [h.stages]; simp, ht⟩
        have hlen : 0 < (Verif.Builder.unresolved B' res').length := List.length_pos_of_mem hmem
        obtain ⟨fuel', rfl⟩ : ∃ k, fuel' = k + 1 := ⟨fuel' - 1, by omega⟩
        have hw : (B'.outs t).isEmpty = false := by
          rw [Bool.eq_false_iff]
          intro g
          exact h.writes (List.isEmpty_iff.1 g)
        have hu' : Verif.Builder.unresolved B' (res' ++ [t]) = [] := by
          rw [List.eq_nil_iff_forall_not_mem]
          intro s hs'
          obtain ⟨h1, h2⟩ := mem_unresolved.1 hs'
          have hne : s ≠ t := by rintro rfl; exact h2 (by simp)
          have : s ∈ without t (Verif.Builder.unresolved B' res') :=
            mem_without.2 ⟨mem_unresolved.2 ⟨h1, fun g => h2 (List.mem_append_left _ g)⟩, hne⟩
          rw [hs.unresolved h, hu] at this
          cases this
        have ho : π'.order n' [t] = [t] := List.perm_singleton.1 (π'.perm _ _)
        refine ⟨[[t]], ?_, ?_⟩
        · unfold loop
          have hne : (Verif.Builder.unresolved B' res').isEmpty = false := by
            rw [Bool.eq_false_iff]
            intro g
            rw [List.isEmpty_iff.1 g] at hmem
            cases hmem
          rw [hne]
          simp only [hr, Bool.false_eq_true, if_false]
          have hpf : [t].filter (fun s => !(B'.outs s).isEmpty) = [t] := by simp [hw]
          rw [hpf]
          have hp : (res' ++ [t]).any (fun s => decide (s ∉ res')) = true := by
            rw [List.any_eq_true]
            exact ⟨t, by simp, by simpa using ht⟩
          rw [if_pos hp]
          unfold loop
          simp [hu', ho]
        · have : strike t [[t]] = [] := by simp [strike, without]
          rw [this]
          exact .nil
    · rename_i hu
      have hmem0 : ∃ s, s ∈ Verif.Builder.unresolved B res := by
        rcases hx : Verif.Builder.unresolved B res with _ | ⟨s, l⟩
        · rw [hx] at hu; simp at hu
        · exact ⟨s, by simp⟩
      have hne' : (Verif.Builder.unresolved B' res').isEmpty = false := by
        rw [Bool.eq_false_iff]
        intro g
        obtain ⟨s, hs'⟩ := hmem0
        rw [← hs.unresolved h, List.isEmpty_iff.1 g] at hs'
        cases hs'
      split at hl
      · cases hl
      · rename_i post hr
        have hpm := round_mem hr
        obtain ⟨post', hr', hperm⟩ := round_ext h hs π' n' hr
        have hnext := hs.next h hperm
        have hin : ∀ s, s ∈ post → s ∈ post' := fun s hs' =>
          (mem_without.1 (hperm.mem_iff.2 hs')).1
        split at hl
        · rename_i hprog
          obtain ⟨s, hs1, hs2⟩ := List.any_eq_true.1 hprog
          have hs2' : s ∉ res := by simpa using hs2
          have hspost : s ∈ post.filter (fun s => !(B.outs s).isEmpty) := by
            rcases List.mem_append.1 hs1 with g | g
            · exact absurd g hs2'
            · exact g
          obtain ⟨hsp, hso⟩ := List.mem_filter.1 hspost
          have hst := h.ne (hpm s hsp).1
          have hprog' : (res' ++ post'.filter (fun s => !(B'.outs s).isEmpty)).any
              (fun s => decide (s ∉ res')) = true := by
            rw [List.any_eq_true]
            refine ⟨s, (hnext.stage s hst).2 hs1, ?_⟩
            simpa using fun g => hs2' ((hs.stage s hst).1 g)
          split at hl
          · cases hl
          · rename_i rest hrest
            cases hl
            have hfound' : ∀ a ∈ strip rt kind (B'.ins t), a ∈ av ++ post.flatMap B.outs ∨
                ∃ s ∈ B.stages, s ∉ res ++ post.filter (fun s => !(B.outs s).isEmpty) ∧
                  a ∈ B.outs s := by
              intro a ha
              rcases hfound a ha with g | ⟨x, hx1, hx2, hx3⟩
              · exact .inl (List.mem_append_left _ g)
              · by_cases hxp : x ∈ post
                · exact .inl (List.mem_append_right _ (List.mem_flatMap.2 ⟨x, hxp, hx3⟩))
                · refine .inr ⟨x, hx1, ?_, hx3⟩
                  rw [List.mem_append]
                  rintro (g | g)
                  · exact hx2 g
                  · exact hxp (List.mem_filter.1 g).1
            have hlen : (Verif.Builder.unresolved B'
                (res' ++ post'.filter (fun s => !(B'.outs s).isEmpty))).length <
                (Verif.Builder.unresolved B' res').length := by
              refine unresolved_lt (fun x hx => List.mem_append_left _ hx) (s := s) ?_ ?_
                ((hnext.stage s hst).2 hs1)
              · rw [h.stages]
                exact List.mem_append_left _ (hpm s hsp).1
              · exact fun g => hs2' ((hs.stage s hst).1 g)
            obtain ⟨rest', hrest', hrel⟩ := ih (n' := n' + 1) (fuel' := fuel') hnext hfound'
              (by omega) hrest
            refine ⟨π'.order n' post' :: rest', ?_, ?_⟩
            · unfold loop
              rw [hne']
              simp only [hr', Bool.false_eq_true, if_false]
              rw [if_pos hprog', hrest']
            · have hstrike : strike t (π'.order n' post' :: rest') =
                  without t (π'.order n' post') :: strike t rest' := by
                unfold strike
                rw [List.map_cons, List.filter_cons_of_pos]
                have : s ∈ without t (π'.order n' post') :=
                  mem_without.2 ⟨(π'.perm _ _).mem_iff.2 (hin s hsp), hst⟩
                cases hw : without t (π'.order n' post') with
                | nil => rw [hw] at this; cases this
                | cons => rfl
              rw [hstrike]
              refine .cons ?_ hrel
              exact ((π.perm _ _).trans hperm.symm).trans (without_perm (π'.perm _ _)).symm
        · rename_i hnp
          split at hl
          · rename_i hu2
            exfalso
            obtain ⟨s, hs'⟩ := hmem0
            obtain ⟨h1, h2⟩ := mem_unresolved.1 hs'
            apply hnp
            rw [List.any_eq_true]
            refine ⟨s, ?_, by simpa using h2⟩
            by_contra hcon
            have : s ∈ Verif.Builder.unresolved B
                (res ++ post.filter (fun s => !(B.outs s).isEmpty)) :=
              mem_unresolved.2 ⟨h1, hcon⟩
            rw [List.isEmpty_iff.1 hu2] at this
            cases this
          · cases hl

theorem gather_cpython_ok {l : List (S × A)}
    (h : ∀ p ∈ l, kind p.2 ≠ .beforeClass ∧ kind p.2 ≠ .afterClass) :
    gatherRestrictions cpython kind l = .ok [] := by
  induction l with
  | nil => rfl
  | cons p rest ih =>
    obtain ⟨s, a⟩ := p
    have h1 := h (s, a) (by simp)
    unfold gatherRestrictions
    rw [ih fun q hq => h q (by simp [hq])]
    unfold argRestrictions
    cases hk : kind a with
    | plain => rfl
    | beforeAlias => rfl
    | afterAlias => rfl
    | beforeClass => exact absurd hk h1.1
    | afterClass => exact absurd hk h1.2

theorem addStage_ok {t : S} {ins outs : List A} (hnew : t ∉ B.stages)
    (hp : ∀ a ∈ outs, ¬ Recognised cpython (kind a)) :
    (addStage cpython kind B t ins outs).2 =
      { stages := B.stages ++ [t],
        ins := fun s => if s = t then ins else B.ins s,
        outs := fun s => if s = t then outs else B.outs s } := by
  unfold addStage
  rw [if_neg hnew, if_neg]
  rw [List.any_eq_true]
  rintro ⟨a, ha, h⟩
  apply hp a ha
  cases hk : kind a with
  | plain => simp [hk, isBefore, isAfter] at h
  | beforeAlias => simp [hk, isBefore, isAfter, cpython] at h
  | afterAlias => simp [hk, isBefore, isAfter, cpython] at h
  | beforeClass => exact .beforeClass
  | afterClass => exact .afterClass

theorem Observer.ext {init : List A} {t : S} {ins outs : List A}
    (h : Observer kind B init t ins outs) :
    Extends B (addStage cpython kind B t ins outs).2 t := by
  rw [addStage_ok h.new fun a ha => h.plain a (List.mem_append_right _ ha)]
  refine ⟨rfl, h.new, ?_, ?_, ?_, ?_, ?_⟩
  · intro s hs; simp [hs]
  · intro s hs; simp [hs]
  · intro a ha; simp at ha ⊢; exact (h.fresh a ha).1
  · intro a ha; simp at ha; exact (h.fresh a ha).2
  · simpa using h.writes

theorem build_ext (hB : B.stages.Nodup) {init : InitArg A} {t : S} {ins outs : List A}
    (h : Observer kind B init.args t ins outs) {π π' : SetOrder S} {sched : List (List S)}
    (hb : (build cpython kind B π init).1 = .ok sched) :
    ∃ sched', (build cpython kind (addStage cpython kind B t ins outs).2 π' init).1 =
        .ok sched' ∧ List.Forall₂ List.Perm sched (strike t sched') := by
  have hext := h.ext
  have hBeq := addStage_ok (ins := ins) h.new fun a ha => h.plain a (List.mem_append_right _ ha)
  generalize (addStage cpython kind B t ins outs).2 = B' at hext hBeq
  have hnd' : B'.stages.Nodup := by
    rw [hext.stages, List.nodup_append]
    refine ⟨hB, by simp, ?_⟩
    intro a ha b hb hab
    simp at hb
    subst hb hab
    exact h.new ha
  have hinsT : B'.ins t = ins := by rw [hBeq]; simp
  obtain ⟨hr, hc⟩ := build_ok hb
  obtain ⟨restr, hrestr, hloop⟩ := resolve_ok hr
  have hkinds := gather_ok hrestr
  have hnil : restr = [] := hkinds.2.2 rfl
  subst hnil
  have hstripB : ∀ s ∈ B.stages, strip cpython kind (B.ins s) = B.ins s := fun s hs =>
    strip_cpython hrestr hs
  have hrestr' : orderingRestrictions cpython kind B' = .ok [] := by
    apply gather_cpython_ok
    rintro ⟨s, a⟩ hp
    obtain ⟨s', hs', hp'⟩ := List.mem_flatMap.1 hp
    obtain ⟨a', ha', he⟩ := List.mem_map.1 hp'
    cases he
    rw [hext.stages] at hs'
    rcases List.mem_append.1 hs' with g | g
    · rw [hext.ins s (hext.ne g)] at ha'
      exact hkinds.1 (s, a) (restrictions_mem g ha')
    · simp at g
      subst g
      rw [hinsT] at ha'
      have := h.plain a (List.mem_append_left _ ha')
      constructor
      · intro hk; apply this; rw [hk]; exact .beforeClass
      · intro hk; apply this; rw [hk]; exact .afterClass
  have hstep : InStep B' t [] init.args [] init.args :=
    ⟨by simp, by simp, by simp⟩
  have hfound : ∀ a ∈ strip cpython kind (B'.ins t), a ∈ init.args ∨
      ∃ s ∈ B.stages, s ∉ ([] : List S) ∧ a ∈ B.outs s := by
    intro a ha
    rw [hinsT] at ha
    rcases h.found a (List.mem_filter.1 ha).1 with g | ⟨s, hs, g⟩
    · exact .inl g
    · exact .inr ⟨s, hs, by simp, g⟩
  have hfuel : (Verif.Builder.unresolved B' []).length < B'.stages.length + 1 :=
    Nat.lt_succ_of_le (List.length_filter_le _ _)
  rw [hloop] at hr
  obtain ⟨sched', hs', hrel⟩ := loop_ext hext π' (n' := 0) hstep hfound hfuel hr
  have hres' : (resolve cpython kind B' π' init.args).out = .ok sched' := by
    unfold resolve
    rw [hrestr']
    exact hs'
  refine ⟨sched', ?_, hrel⟩
  obtain ⟨r2, hr2, hsch, hav⟩ := resolve_sched hnd' hres'
  rw [hrestr'] at hr2
  cases hr2
  have hck : checkRunnable B' (resolve cpython kind B' π' init.args).avail sched' = true := by
    apply checkRunnable_of_subset
    intro e he s hs a ha
    obtain ⟨i, hi⟩ := List.getElem?_of_mem he
    obtain ⟨hok, _⟩ := hsch.get i e hi
    have hstrip : strip cpython kind (B'.ins s) = B'.ins s := strip_cpython hrestr' (hok.stage s hs).1
    have := hok.inputs s hs a (by rw [hstrip]; exact ha)
    rw [hav]
    rcases this with g | ⟨j, x, _, hx, hax⟩
    · exact .inl g
    · obtain ⟨e', he', hxe⟩ := hx
      exact .inr ⟨e', List.mem_of_getElem? he', x, hxe, hax⟩
  unfold build
  simp only [hres', hck, if_true]

end Verif.Builder
