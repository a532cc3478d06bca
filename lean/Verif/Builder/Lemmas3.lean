import Verif.Builder.Lemmas2
import Mathlib.Order.Nat
import Mathlib.Data.Nat.Find
/-! Helper lemmas: completeness of the resolution and histories of `add_stage`. -/
set_option autoImplicit false
set_option linter.unusedSectionVars false

namespace Verif.Builder

variable {S A : Type} [DecidableEq S] [DecidableEq A]
variable {rt : Runtime} {kind : A → Kind S} {B : Builder S A} {restr : List (S × S)}
  {π : SetOrder S}

theorem unresolved_lt {res res' : List S} (hsub : ∀ s, s ∈ res → s ∈ res') {s : S}
    (hs : s ∈ B.stages) (h1 : s ∉ res) (h2 : s ∈ res') :
    (unresolved B res').length < (unresolved B res).length := by
  have hsl : (unresolved B res').Sublist (unresolved B res) := by
    unfold unresolved
    apply List.monotone_filter_right
    intro t ht
    simp only [decide_eq_true_eq] at ht ⊢
    exact fun h => ht (hsub t h)
  rcases Nat.lt_or_ge (unresolved B res').length (unresolved B res).length with h | h
  · exact h
  · have := hsl.eq_of_length_le h
    have hmem : s ∈ unresolved B res := mem_unresolved.2 ⟨hs, h1⟩
    rw [← this] at hmem
    exact absurd h2 (mem_unresolved.1 hmem).2

theorem mutatingCheck_none {canRun : List S}
    (h : ∀ s ∈ canRun, ∀ a ∈ B.ins s, a ∉ B.outs s) : mutatingCheck B canRun = .ok canRun := by
  have : canRun.filter (isMutating B) = [] := by
    rw [List.filter_eq_nil_iff]
    intro s hs hm
    obtain ⟨a, ha, ha'⟩ := isMutating_iff.1 hm
    exact h s hs a ha ha'
  unfold mutatingCheck
  simp [this]

/-- A linear order in which every stage finds what the resolver asks for. -/
def OrderOK (rt : Runtime) (kind : A → Kind S) (B : Builder S A) (restr : List (S × S))
    (init : List A) (order : List S) : Prop :=
  ∀ (i : Nat) (s : S), order[i]? = some s →
    (∀ a ∈ strip rt kind (B.ins s), a ∈ init ∨
      ∃ (j : Nat) (t : S), j < i ∧ order[j]? = some t ∧ a ∈ B.outs t) ∧
    ∀ t ∈ runAfter restr s, ∃ j : Nat, j < i ∧ order[j]? = some t

/-- While stages are left, one of them resolves. -/
theorem exists_ready {init : List A} {order : List S} (hperm : order.Perm B.stages)
    (hrun : OrderOK rt kind B restr init order) {res : List S} {av : List A}
    (hinit : ∀ a ∈ init, a ∈ av) (hres : ∀ s ∈ res, ∀ a ∈ B.outs s, a ∈ av)
    (hu : (unresolved B res).isEmpty ≠ true) (n : Nat) :
    ∃ s, s ∈ (π.order n (unresolved B res)).filter (stageResolves rt kind B restr res av) := by
  have hex : ∃ i : Nat, ∃ s, order[i]? = some s ∧ s ∉ res := by
    by_contra hno
    apply hu
    rw [List.isEmpty_iff, List.eq_nil_iff_forall_not_mem]
    intro s hs
    obtain ⟨h1, h2⟩ := mem_unresolved.1 hs
    obtain ⟨i, hi⟩ := List.getElem?_of_mem (hperm.mem_iff.2 h1)
    exact hno ⟨i, s, hi, h2⟩
  classical
  obtain ⟨s, hs, hsr⟩ := Nat.find_spec hex
  have hmin : ∀ j t, j < Nat.find hex → order[j]? = some t → t ∈ res := by
    intro j t hj ht
    by_contra hc
    exact Nat.find_min hex hj ⟨t, ht, hc⟩
  refine ⟨s, mem_canRun.2 ⟨hperm.mem_iff.1 (List.mem_of_getElem? hs), hsr, ?_, ?_⟩⟩
  · intro a ha
    rcases (hrun _ s hs).1 a ha with h | ⟨j, t, hj, ht, hat⟩
    · exact hinit a h
    · exact hres t (hmin j t hj ht) a hat
  · intro t ht
    obtain ⟨j, hj, hjt⟩ := (hrun _ s hs).2 t ht
    exact hmin j t hj hjt

theorem loop_complete
    (hmut : ∀ s ∈ B.stages, ∀ a ∈ B.ins s, a ∉ B.outs s)
    (hdis : ∀ s ∈ B.stages, ∀ t ∈ B.stages, s ≠ t → ∀ a ∈ B.outs s, a ∉ B.outs t)
    (hne : ∀ s ∈ B.stages, B.outs s ≠ [])
    {init : List A} {order : List S} (hperm : order.Perm B.stages)
    (hrun : OrderOK rt kind B restr init order)
    {fuel n : Nat} {res : List S} {av : List A}
    (hinit : ∀ a ∈ init, a ∈ av) (hres : ∀ s ∈ res, ∀ a ∈ B.outs s, a ∈ av)
    (hf : (unresolved B res).length < fuel) :
    ∃ sched, (loop rt kind B restr π fuel n res av).out = .ok sched := by
  induction fuel generalizing n res av with
  | zero => cases hf
  | succ fuel ih =>
    unfold loop
    simp only
    split
    · exact ⟨[], rfl⟩
    · rename_i hu
      obtain ⟨s, hcan⟩ := exists_ready (π := π) hperm hrun hinit hres hu n
      have hsst := (mem_canRun.1 hcan).1
      have hsr := (mem_canRun.1 hcan).2.1
      have hround : round rt kind B restr π n res av = .ok ((π.order n (unresolved B res)).filter
          (stageResolves rt kind B restr res av)) := by
        unfold round
        simp only
        rw [mutatingCheck_none (fun s hs => hmut s (mem_canRun.1 hs).1)]
        simp only
        rw [if_neg]
        intro hc
        rw [List.any_eq_true] at hc
        obtain ⟨s, hs, hc⟩ := hc
        rw [List.any_eq_true] at hc
        obtain ⟨t, ht, hc⟩ := hc
        rw [Bool.and_eq_true, List.any_eq_true] at hc
        obtain ⟨hst, a, ha, hat⟩ := hc
        exact hdis s (mem_canRun.1 hs).1 t (mem_canRun.1 ht).1
          (fun h => by simp [h] at hst) a ha (by simpa using hat)
      rw [hround]
      simp only
      have hin : s ∈ res ++ ((π.order n (unresolved B res)).filter
          (stageResolves rt kind B restr res av)).filter (fun s => !(B.outs s).isEmpty) :=
        List.mem_append_right _ (List.mem_filter.2 ⟨hcan, by simpa using hne s hsst⟩)
      rw [if_pos (List.any_eq_true.2 ⟨s, hin, by simpa using hsr⟩)]
      obtain ⟨sched, hsched⟩ := ih (n := n + 1)
        (res := res ++ ((π.order n (unresolved B res)).filter
          (stageResolves rt kind B restr res av)).filter (fun s => !(B.outs s).isEmpty))
        (av := av ++ ((π.order n (unresolved B res)).filter
          (stageResolves rt kind B restr res av)).flatMap B.outs)
        (fun a ha => List.mem_append_left _ (hinit a ha))
        (fun t ht a ha => by
          rcases List.mem_append.1 ht with h | h
          · exact List.mem_append_left _ (hres t h a ha)
          · exact List.mem_append_right _ (List.mem_flatMap.2 ⟨t, (List.mem_filter.1 h).1, ha⟩))
        (by
          have := unresolved_lt (B := B) (fun t ht => List.mem_append_left _ ht) hsst hsr hin
          omega)
      rw [hsched]
      exact ⟨_, rfl⟩

theorem round_error {n : Nat} {res : List S} {av : List A} {e : BuildError}
    (h : round rt kind B restr π n res av = .error e) :
    e = .ambiguousMutating ∨ e = .ambiguousOutput := by
  unfold round at h
  simp only at h
  split at h
  · rename_i e' he
    cases h
    unfold mutatingCheck at he
    simp only at he
    split at he
    · cases he
    · split at he
      · cases he; exact .inl rfl
      · cases he
  · split at h
    · cases h; exact .inr rfl
    · cases h

theorem round_post {n : Nat} {res : List S} {av : List A} {post : List S}
    (h : round rt kind B restr π n res av = .ok post) :
    mutatingCheck B ((π.order n (unresolved B res)).filter
      (stageResolves rt kind B restr res av)) = .ok post := by
  unfold round at h
  simp only at h
  split at h
  · cases h
  · rename_i p hp
    split at h
    · cases h
    · cases h; exact hp

/-- When mutations are not circular, resolution does not get stuck on a runnable pipeline. -/
theorem loop_not_missing (hne : ∀ s ∈ B.stages, B.outs s ≠ []) (f : S → Nat)
    (hf : ∀ m ∈ B.stages, ∀ s ∈ B.stages, s ≠ m → ∀ a, a ∈ B.ins m → a ∈ B.outs m →
      a ∈ B.ins s → f m < f s)
    {init : List A} {order : List S} (hperm : order.Perm B.stages)
    (hrun : OrderOK rt kind B restr init order)
    {fuel n : Nat} {res : List S} {av : List A}
    (hinit : ∀ a ∈ init, a ∈ av) (hres : ∀ s ∈ res, ∀ a ∈ B.outs s, a ∈ av) :
    (loop rt kind B restr π fuel n res av).out ≠ .error .missingInputs := by
  induction fuel generalizing n res av with
  | zero => simp [loop]
  | succ fuel ih =>
    unfold loop
    simp only
    split
    · simp
    · rename_i hu
      split
      · rename_i e he
        rcases round_error he with h | h <;> simp [h]
      · rename_i post hpost
        have hex : ∃ k : Nat, ∃ s, s ∈ (π.order n (unresolved B res)).filter
            (stageResolves rt kind B restr res av) ∧ f s = k := by
          obtain ⟨s, hs⟩ := exists_ready (π := π) hperm hrun hinit hres hu n
          exact ⟨f s, s, hs, rfl⟩
        classical
        obtain ⟨s, hs, hsf⟩ := Nat.find_spec hex
        have hsst := (mem_canRun.1 hs).1
        have hsr := (mem_canRun.1 hs).2.1
        obtain ⟨⟨p, hp⟩, -, hmax⟩ := mutatingCheck_ok (round_post hpost)
        have hsp : s ∈ post := by
          refine hmax s hs (fun m hm a ha ha' hsm has => ?_)
          have hlt := hf m (mem_canRun.1 hm).1 s hsst hsm a ha ha' has
          exact Nat.find_min hex (hsf ▸ hlt) ⟨m, hm, rfl⟩
        have hin : s ∈ res ++ post.filter (fun s => !(B.outs s).isEmpty) :=
          List.mem_append_right _ (List.mem_filter.2 ⟨hsp, by simpa using hne s hsst⟩)
        rw [if_pos (List.any_eq_true.2 ⟨s, hin, by simpa using hsr⟩)]
        have := ih (n := n + 1) (res := res ++ post.filter (fun s => !(B.outs s).isEmpty))
          (av := av ++ post.flatMap B.outs)
          (fun a ha => List.mem_append_left _ (hinit a ha))
          (fun t ht a ha => by
            rcases List.mem_append.1 ht with h | h
            · exact List.mem_append_left _ (hres t h a ha)
            · exact List.mem_append_right _ (List.mem_flatMap.2 ⟨t, (List.mem_filter.1 h).1, ha⟩))
        split
        · rename_i e he
          intro hc
          rw [he] at this
          simp only [Except.error.injEq] at hc
          exact this (by rw [hc])
        · simp

theorem flatten_key (l : List (List S)) (k : Nat) (s : S) (hk : l.flatten[k]? = some s) :
    ∃ i, StageAt l i s ∧ ∀ j t, j < i → StageAt l j t →
      ∃ k', k' < k ∧ l.flatten[k']? = some t := by
  induction l generalizing k s with
  | nil => simp at hk
  | cons e rest ih =>
    simp only [List.flatten_cons] at hk ⊢
    by_cases hlt : k < e.length
    · rw [List.getElem?_append_left hlt] at hk
      refine ⟨0, ⟨e, by simp, List.mem_of_getElem? hk⟩, ?_⟩
      intro j t hj; omega
    · rw [List.getElem?_append_right (by omega)] at hk
      obtain ⟨i, ⟨e', he', hs⟩, hprev⟩ := ih _ s hk
      refine ⟨i + 1, ⟨e', by simpa using he', hs⟩, ?_⟩
      intro j t hj ht
      obtain ⟨e'', he'', ht'⟩ := ht
      cases j with
      | zero =>
        simp only [List.getElem?_cons_zero, Option.some.injEq] at he''
        subst he''
        obtain ⟨k', hk'⟩ := List.getElem?_of_mem ht'
        have hl : k' < e.length := by
          rw [List.getElem?_eq_some_iff] at hk'
          exact hk'.1
        exact ⟨k', by omega, by rw [List.getElem?_append_left hl]; exact hk'⟩
      | succ j =>
        obtain ⟨k', hk1, hk2⟩ := hprev j t (by omega) ⟨e'', by simpa using he'', ht'⟩
        refine ⟨k' + e.length, by omega, ?_⟩
        rw [List.getElem?_append_right (by omega)]
        simpa using hk2

theorem flatten_runnable {ins outs : S → List A} {init : List A} (sched : List (List S))
    (h : ∀ i s, StageAt sched i s → ∀ a ∈ ins s, AvailableBefore outs init sched i a) :
    Runnable ins outs init sched.flatten := by
  intro k s hk a ha
  obtain ⟨i, hi, hprev⟩ := flatten_key sched k s hk
  rcases h i s hi a ha with h | ⟨j, t, hj, ht, hat⟩
  · exact .inl h
  · obtain ⟨k', hk1, hk2⟩ := hprev j t hj ht
    exact .inr ⟨k', t, hk1, hk2, hat⟩

omit [DecidableEq S] [DecidableEq A] in
theorem recognised_iff {k : Kind S} :
    (isBefore rt k || isAfter rt k) = true ↔ Recognised rt k := by
  constructor
  · intro h
    cases k with
    | plain => simp [isBefore, isAfter] at h
    | beforeAlias s => exact .beforeAlias (by simpa [isBefore, isAfter] using h) s
    | afterAlias s => exact .afterAlias (by simpa [isBefore, isAfter] using h) s
    | beforeClass => exact .beforeClass
    | afterClass => exact .afterClass
  · intro h
    cases h <;> simp_all [isBefore, isAfter]

theorem addStage_cases (rt : Runtime) (kind : A → Kind S) (B : Builder S A) (c : Call S A) :
    (c.stage ∈ B.stages ∧ addStage rt kind B c.stage c.ins c.outs = (.error .valueError, B)) ∨
    (c.stage ∉ B.stages ∧ ¬ c.clean rt kind ∧
      addStage rt kind B c.stage c.ins c.outs = (.error .typeError, B)) ∨
    (c.stage ∉ B.stages ∧ c.clean rt kind ∧
      addStage rt kind B c.stage c.ins c.outs =
        (.ok (), { stages := B.stages ++ [c.stage],
                   ins := fun t => if t = c.stage then c.ins else B.ins t,
                   outs := fun t => if t = c.stage then c.outs else B.outs t })) := by
  unfold addStage
  by_cases h : c.stage ∈ B.stages
  · left; simp [h]
  · right
    simp only [h, if_false, not_false_eq_true, true_and]
    by_cases hc : c.outs.any (fun a => isBefore rt (kind a) || isAfter rt (kind a)) = true
    · left
      rw [if_pos hc]
      refine ⟨?_, rfl⟩
      intro hcl
      rw [List.any_eq_true] at hc
      obtain ⟨a, ha, h'⟩ := hc
      exact hcl a ha (recognised_iff.1 h')
    · right
      rw [if_neg hc]
      refine ⟨?_, rfl⟩
      intro a ha
      rw [List.any_eq_true] at hc
      exact fun h1 => hc ⟨a, ha, recognised_iff.2 h1⟩

theorem runCalls_append (cs ds : List (Call S A)) (B : Builder S A) :
    runCalls rt kind (cs ++ ds) B = runCalls rt kind ds (runCalls rt kind cs B) := by
  induction cs generalizing B with
  | nil => rfl
  | cons c cs ih => simp [runCalls, ih]

/-- Stages present after a history. -/
theorem runCalls_stages (cs : List (Call S A)) (B : Builder S A) (hB : B.stages.Nodup) :
    (runCalls rt kind cs B).stages.Nodup ∧
    ∀ s, s ∈ (runCalls rt kind cs B).stages ↔
      s ∈ B.stages ∨ ∃ c ∈ cs, c.stage = s ∧ c.clean rt kind := by
  induction cs generalizing B with
  | nil => simp [runCalls, hB]
  | cons c cs ih =>
    unfold runCalls
    rcases addStage_cases rt kind B c with ⟨h1, h2⟩ | ⟨h1, h2, h3⟩ | ⟨h1, h2, h3⟩
    · rw [h2]
      obtain ⟨i1, i2⟩ := ih B hB
      refine ⟨i1, fun s => ?_⟩
      rw [i2 s]
      simp only [List.mem_cons, exists_eq_or_imp]
      constructor
      · rintro (h | h)
        · exact .inl h
        · exact .inr (.inr h)
      · rintro (h | ⟨h, _⟩ | h)
        · exact .inl h
        · exact .inl (h ▸ h1)
        · exact .inr h
    · rw [h3]
      obtain ⟨i1, i2⟩ := ih B hB
      refine ⟨i1, fun s => ?_⟩
      rw [i2 s]
      simp only [List.mem_cons, exists_eq_or_imp]
      constructor
      · rintro (h | h)
        · exact .inl h
        · exact .inr (.inr h)
      · rintro (h | ⟨_, h⟩ | h)
        · exact .inl h
        · exact absurd h h2
        · exact .inr h
    · rw [h3]
      obtain ⟨i1, i2⟩ := ih
        { stages := B.stages ++ [c.stage],
          ins := fun t => if t = c.stage then c.ins else B.ins t,
          outs := fun t => if t = c.stage then c.outs else B.outs t }
        (by
          rw [List.nodup_append]
          refine ⟨hB, by simp, ?_⟩
          intro a ha b hb hab
          simp only [List.mem_singleton] at hb
          subst hab hb
          exact h1 ha)
      refine ⟨i1, fun s => ?_⟩
      rw [i2 s]
      simp only [List.mem_cons, exists_eq_or_imp, List.mem_append, List.not_mem_nil, or_false]
      constructor
      · rintro ((h | h) | h)
        · exact .inl h
        · exact .inr (.inl ⟨h.symm, h2⟩)
        · exact .inr (.inr h)
      · rintro (h | ⟨h, _⟩ | h)
        · exact .inl (.inl h)
        · exact .inl (.inr h.symm)
        · exact .inr h

/-- Later calls never change the declaration of a stage that is present. -/
theorem runCalls_keep (cs : List (Call S A)) (B : Builder S A) {s : S} (hs : s ∈ B.stages) :
    (runCalls rt kind cs B).ins s = B.ins s ∧ (runCalls rt kind cs B).outs s = B.outs s := by
  induction cs generalizing B with
  | nil => exact ⟨rfl, rfl⟩
  | cons c cs ih =>
    unfold runCalls
    rcases addStage_cases rt kind B c with ⟨h1, h2⟩ | ⟨h1, h2, h3⟩ | ⟨h1, h2, h3⟩
    · rw [h2]; exact ih B hs
    · rw [h3]; exact ih B hs
    · rw [h3]
      obtain ⟨i1, i2⟩ := ih
        { stages := B.stages ++ [c.stage],
          ins := fun t => if t = c.stage then c.ins else B.ins t,
          outs := fun t => if t = c.stage then c.outs else B.outs t }
        (List.mem_append_left _ hs)
      have hne : s ≠ c.stage := fun h => h1 (h ▸ hs)
      simp only [hne, if_false] at i1 i2
      exact ⟨i1, i2⟩

/-- The declaration of a stage that is absent after the history is untouched. -/
theorem runCalls_absent (cs : List (Call S A)) (B : Builder S A) (hB : B.stages.Nodup) {s : S}
    (hs : s ∉ (runCalls rt kind cs B).stages) :
    (runCalls rt kind cs B).ins s = B.ins s ∧ (runCalls rt kind cs B).outs s = B.outs s := by
  induction cs generalizing B with
  | nil => exact ⟨rfl, rfl⟩
  | cons c cs ih =>
    unfold runCalls at hs ⊢
    rcases addStage_cases rt kind B c with ⟨h1, h2⟩ | ⟨h1, h2, h3⟩ | ⟨h1, h2, h3⟩
    · rw [h2] at hs ⊢; exact ih B hB hs
    · rw [h3] at hs ⊢; exact ih B hB hs
    · rw [h3] at hs ⊢
      have hB' : (B.stages ++ [c.stage]).Nodup := by
        rw [List.nodup_append]
        refine ⟨hB, by simp, ?_⟩
        intro a ha b hb hab
        simp only [List.mem_singleton] at hb
        subst hab hb
        exact h1 ha
      obtain ⟨i1, i2⟩ := ih
        { stages := B.stages ++ [c.stage],
          ins := fun t => if t = c.stage then c.ins else B.ins t,
          outs := fun t => if t = c.stage then c.outs else B.outs t } hB' hs
      have hne : s ≠ c.stage := by
        intro h
        apply hs
        rw [(runCalls_stages cs _ hB').2]
        left
        simp [h]
      simp only [hne, if_false] at i1 i2
      exact ⟨i1, i2⟩

/-- The first acceptable call for a stage determines its declaration. -/
theorem runCalls_first (pre post : List (Call S A)) (c : Call S A) (hc : c.clean rt kind)
    (hpre : ∀ d ∈ pre, d.stage = c.stage → ¬ d.clean rt kind) :
    (runCalls rt kind (pre ++ c :: post) Builder.empty).ins c.stage = c.ins ∧
    (runCalls rt kind (pre ++ c :: post) Builder.empty).outs c.stage = c.outs := by
  rw [runCalls_append]
  have hnd : (Builder.empty (S := S) (A := A)).stages.Nodup := by simp [Builder.empty]
  have hno : c.stage ∉ (runCalls rt kind pre (Builder.empty (S := S) (A := A))).stages := by
    rw [(runCalls_stages pre _ hnd).2]
    rintro (h | ⟨d, hd, h1, h2⟩)
    · simp [Builder.empty] at h
    · exact hpre d hd h1 h2
  unfold runCalls
  rcases addStage_cases rt kind (runCalls rt kind pre Builder.empty) c with
    ⟨h1, h2⟩ | ⟨h1, h2, h3⟩ | ⟨h1, h2, h3⟩
  · exact absurd h1 hno
  · exact absurd hc h2
  · rw [h3]
    obtain ⟨i1, i2⟩ := runCalls_keep (rt := rt) (kind := kind) post
      { stages := (runCalls rt kind pre Builder.empty).stages ++ [c.stage],
        ins := fun t => if t = c.stage then c.ins else (runCalls rt kind pre Builder.empty).ins t,
        outs := fun t => if t = c.stage then c.outs else (runCalls rt kind pre Builder.empty).outs t }
      (s := c.stage) (by simp)
    simp only [if_true] at i1 i2
    exact ⟨i1, i2⟩

/-- Permuted histories of distinct stages give equivalent builders. -/
theorem runCalls_perm {cs ds : List (Call S A)} (h : cs.Perm ds)
    (hnd : (cs.map Call.stage).Nodup) :
    (runCalls rt kind cs Builder.empty).stages.Perm (runCalls rt kind ds Builder.empty).stages ∧
    (runCalls rt kind cs Builder.empty).ins = (runCalls rt kind ds Builder.empty).ins ∧
    (runCalls rt kind cs Builder.empty).outs = (runCalls rt kind ds Builder.empty).outs := by
  have hnd' : (ds.map Call.stage).Nodup := (h.map Call.stage).nodup_iff.1 hnd
  have he : (Builder.empty (S := S) (A := A)).stages.Nodup := by simp [Builder.empty]
  have s1 := runCalls_stages (rt := rt) (kind := kind) cs Builder.empty he
  have s2 := runCalls_stages (rt := rt) (kind := kind) ds Builder.empty he
  have hmem : ∀ s, s ∈ (runCalls rt kind cs Builder.empty).stages ↔
      s ∈ (runCalls rt kind ds Builder.empty).stages := by
    intro s
    rw [s1.2, s2.2]
    simp only [h.mem_iff]
  have hdecl : ∀ s, (runCalls rt kind cs Builder.empty).ins s =
      (runCalls rt kind ds Builder.empty).ins s ∧
      (runCalls rt kind cs Builder.empty).outs s = (runCalls rt kind ds Builder.empty).outs s := by
    intro s
    by_cases hs : s ∈ (runCalls rt kind cs Builder.empty).stages
    · rcases (s1.2 s).1 hs with h0 | ⟨c, hc, hcs, hcl⟩
      · simp [Builder.empty] at h0
      · subst hcs
        have first : ∀ l : List (Call S A), (l.map Call.stage).Nodup → c ∈ l →
            (runCalls rt kind l Builder.empty).ins c.stage = c.ins ∧
            (runCalls rt kind l Builder.empty).outs c.stage = c.outs := by
          intro l hl hcl'
          obtain ⟨pre, post, rfl⟩ := List.append_of_mem hcl'
          refine runCalls_first pre post c hcl ?_
          intro d hd hdc
          rw [List.map_append, List.nodup_append] at hl
          exact absurd rfl (hl.2.2 _ (List.mem_map_of_mem hd) _ (by simp [hdc]))
        obtain ⟨a1, a2⟩ := first cs hnd hc
        obtain ⟨b1, b2⟩ := first ds hnd' (h.mem_iff.1 hc)
        exact ⟨a1.trans b1.symm, a2.trans b2.symm⟩
    · obtain ⟨a1, a2⟩ := runCalls_absent cs Builder.empty he hs
      obtain ⟨b1, b2⟩ := runCalls_absent ds Builder.empty he (fun h' => hs ((hmem s).2 h'))
      exact ⟨a1.trans b1.symm, a2.trans b2.symm⟩
  exact ⟨(List.perm_ext_iff_of_nodup s1.1 s2.1).2 hmem, funext fun s => (hdecl s).1,
    funext fun s => (hdecl s).2⟩

end Verif.Builder
