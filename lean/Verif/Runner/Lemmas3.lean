import Verif.Runner.Lemmas2
/-! Frame and restart lemmas for the runner. -/
set_option autoImplicit false
set_option linter.unusedSectionVars false

namespace Verif.Runner

variable {S N V E : Type} [DecidableEq S] [DecidableEq N]

/-- A property of states that `run_stage` preserves is preserved by loops of it. -/
theorem runStages_preserves {P : Pipeline S N V E} {Q : State S N V E → Prop}
    (hQ : ∀ st s kw, Q st → Q (runStage P st s kw).2) (l : List S) {st : State S N V E}
    (h : Q st) : Q (runStages P l st).2 := by
  induction l generalizing st with
  | nil => exact h
  | cons s ss ih =>
    unfold runStages
    have := hQ st s [] h
    split
    · rename_i hr; rw [hr] at this; exact this
    · rename_i hr; rw [hr] at this; exact ih this

theorem runFrom_preserves {P : Pipeline S N V E} {Q : State S N V E → Prop}
    (hQ : ∀ st s kw, Q st → Q (runStage P st s kw).2) (l : List S) {st st' : State S N V E}
    {args : Dict N V} (hr : reset P st args = some st') (h : Q st') :
    Q (runFrom P st args l).2 := by
  unfold runFrom
  have := runStages_preserves hQ l h
  simp only [hr]
  split <;> rename_i hr' <;> rw [hr'] at this <;> exact this

theorem genLoop_preserves {P : Pipeline S N V E} {Q : State S N V E → Prop}
    (hQ : ∀ st s kw, Q st → Q (runStage P st s kw).2) (l : List S) {st : State S N V E}
    (h : Q st) : Q (genLoop P st l).2.2 := by
  cases l with
  | nil => exact h
  | cons s ss =>
    unfold genLoop
    have := hQ st s [] h
    simp only
    split <;> rename_i hr <;> rw [hr] at this <;> exact this

/-- Properties preserved by `run_stage` and established by every reset hold along every
history. -/
theorem step_preserves {P : Pipeline S N V E} {Q : State S N V E → Prop}
    (hQ : ∀ st s kw, Q st → Q (runStage P st s kw).2)
    (hR : ∀ st args st', Q st → reset P st args = some st' → Q st')
    (hI : ∀ st, Q st → Inv P st)
    {w : World S N V E} (h : Q w.st) (op : Op S N V) : Q (step P w op).st := by
  cases op with
  | runStage s kw => exact hQ _ s kw h
  | runAll args =>
    obtain ⟨st', h1, -⟩ := reset_eq (hI _ h) args
    exact runFrom_preserves hQ _ h1 (hR _ _ _ h h1)
  | runUntil stop args =>
    obtain ⟨st', h1, -⟩ := reset_eq (hI _ h) args
    exact runFrom_preserves hQ _ h1 (hR _ _ _ h h1)
  | newIter args => exact h
  | next k =>
    unfold step
    simp only
    split
    · exact h
    · rename_i g _
      cases g with
      | created args =>
        obtain ⟨st', h1, -⟩ := reset_eq (hI _ h) args
        unfold genNext
        simp only [h1]
        exact genLoop_preserves hQ _ (hR _ _ _ h h1)
      | suspended rest => exact genLoop_preserves hQ _ h
      | finished => exact h

theorem foldl_preserves {P : Pipeline S N V E} {Q : State S N V E → Prop}
    (hQ : ∀ st s kw, Q st → Q (runStage P st s kw).2)
    (hR : ∀ st args st', Q st → reset P st args = some st' → Q st')
    (hI : ∀ st, Q st → Inv P st) (ops : List (Op S N V))
    {w : World S N V E} (h : Q w.st) : Q (ops.foldl (step P) w).st := by
  induction ops generalizing w with
  | nil => exact h
  | cons op ops ih => exact ih (step_preserves hQ hR hI h op)

theorem runStage_avail {P : Pipeline S N V E} (hnd : P.order.flatten.Nodup)
    {st : State S N V E} (h : Inv P st) (s : S) (kw : List (N × V)) :
    (runStage P st s kw).2.avail = st.avail ∧ st.next ≤ (runStage P st s kw).2.next ∧
    ∀ r, r < st.next → r ≠ st.avail → (runStage P st s kw).2.heap r = st.heap r := by
  have := runStage_outcome hnd h s kw
  generalize runStage P st s kw = r at this
  cases this with
  | unknown => exact ⟨rfl, Nat.le_refl _, fun _ _ _ => rfl⟩
  | early => exact ⟨rfl, Nat.le_refl _, fun _ _ _ => rfl⟩
  | missing i e he hs hi => exact ⟨rfl, Nat.le_refl _, fun _ _ _ => rfl⟩
  | raised i e he hs hi => exact ⟨rfl, Nat.le_refl _, fun _ _ _ => rfl⟩
  | ok i e he hs hi hn out hr st' hx => exact ⟨hx.avail, hx.next, hx.heap⟩

/-- A dictionary that the runner no longer refers to as its arguments is never changed. -/
theorem detached {P : Pipeline S N V E} (hnd : P.order.flatten.Nodup) {w : World S N V E}
    (h : Inv P w.st) {r : Nat} (hr : r < w.st.next) (hra : r ≠ w.st.avail)
    (ops : List (Op S N V)) : (ops.foldl (step P) w).st.heap r = w.st.heap r := by
  have := foldl_preserves (P := P)
    (Q := fun st => Inv P st ∧ r < st.next ∧ r ≠ st.avail ∧ st.heap r = w.st.heap r)
    (by
      rintro st s kw ⟨h1, h2, h3, h4⟩
      obtain ⟨g1, g2, g3⟩ := runStage_avail hnd h1 s kw
      exact ⟨runStage_inv hnd h1 s kw, by omega, by rw [g1]; exact h3, by rw [g3 r h2 h3, h4]⟩)
    (by
      rintro st args st' ⟨h1, h2, h3, h4⟩ hr'
      obtain ⟨st'', g1, g2, g3, g4, g5, g6, g7, g8⟩ := reset_eq h1 args
      rw [hr'] at g1
      cases g1
      exact ⟨g2, by omega, by omega, by rw [g8 r (by omega), h4]⟩)
    (fun st h => h.1) ops ⟨h, hr, hra, rfl⟩
  exact this.2.2.2

/-- What is known about the executions since a restart whose first execution is number `b`. -/
structure Since (P : Pipeline S N V E) (b : Nat) (st : State S N V E) : Prop where
  inv : Inv P st
  base : b ≤ st.calls.length
  flags : ∀ (j : Nat) e, 0 < j → P.order[j]? = some e → ∀ s ∈ e, st.ran s = true →
    Succeeded (st.calls.drop b) s
  first : 0 < st.cur → ∃ e, P.order[0]? = some e ∧ ∃ s ∈ e, Succeeded (st.calls.drop b) s

theorem Succeeded.mono {l l' : List (Event S N V E)} {s : S} (h : Succeeded l s)
    (hsub : ∀ ev ∈ l, ev ∈ l') : Succeeded l' s := by
  obtain ⟨ev, h1, h2, h3⟩ := h
  exact ⟨ev, hsub ev h1, h2, h3⟩

theorem Since.log {P : Pipeline S N V E} {b : Nat} {st : State S N V E} (h : Since P b st)
    (ev : Event S N V E) : Since P b { st with calls := st.calls ++ [ev] } := by
  have hb := h.base
  have hsub : ∀ x ∈ st.calls.drop b, x ∈ (st.calls ++ [ev]).drop b := by
    intro x hx
    rw [List.drop_append_of_le_length hb]
    exact List.mem_append_left _ hx
  refine ⟨h.inv.log ev, by simp; omega, ?_, ?_⟩
  · intro j e hj he s hs hr
    exact (h.flags j e hj he s hs hr).mono hsub
  · intro hc
    obtain ⟨e, he, s, hs, h'⟩ := h.first hc
    exact ⟨e, he, s, hs, h'.mono hsub⟩

theorem Since.back {P : Pipeline S N V E} (hnd : P.order.flatten.Nodup) {b : Nat}
    {st : State S N V E} (h : Since P b st) {i : Nat} (hi : i ≤ st.cur) :
    Since P b (back P st i) := by
  refine ⟨h.inv.back hnd hi, h.base, ?_, ?_⟩
  · intro j e hj he s hs hr
    simp only [Runner.back] at hr
    split at hr
    · cases hr
    · exact h.flags j e hj he s hs hr
  · intro hc
    simp only [Runner.back] at hc
    exact h.first (by omega)

theorem Since.runStage {P : Pipeline S N V E} (hnd : P.order.flatten.Nodup) {b : Nat}
    {st : State S N V E} (h : Since P b st) (s : S) (kw : List (N × V)) :
    Since P b (runStage P st s kw).2 := by
  have ho := runStage_outcome hnd h.inv s kw
  generalize Runner.runStage P st s kw = r at ho
  cases ho with
  | unknown => exact h
  | early => exact h
  | missing i e he hs hi => exact h.back hnd hi
  | raised i e he hs hi => exact (h.back hnd hi).log _
  | ok i e he hs hi hn out hr st' hx =>
    have hb := (h.back hnd hi).log ⟨s, (P.fields s).filterMap (override st.args kw), .ok out⟩
    have hcalls : st'.calls = st.calls ++
      [⟨s, (P.fields s).filterMap (override st.args kw), .ok out⟩] := hx.calls
    have hs' : Succeeded (st'.calls.drop b) s := by
      refine ⟨⟨s, (P.fields s).filterMap (override st.args kw), .ok out⟩, ?_, rfl, out, rfl⟩
      rw [hcalls, List.drop_append_of_le_length h.base]
      simp
    refine ⟨hx.inv, by rw [hcalls]; simp; have := h.base; omega, ?_, ?_⟩
    · intro j f hj hf t ht hrt
      rw [hx.ran] at hrt
      by_cases hts : t = s
      · rw [hts]; exact hs'
      · simp only [if_neg hts] at hrt
        rw [hcalls]
        exact hb.flags j f hj hf t ht hrt
    · intro hc
      by_cases hi0 : 0 < i
      · obtain ⟨f, hf, t, ht, h'⟩ := hb.first hi0
        exact ⟨f, hf, t, ht, by rw [hcalls]; exact h'⟩
      · obtain rfl : i = 0 := by omega
        exact ⟨e, he, s, hs, hs'⟩

theorem Since.start {P : Pipeline S N V E} {st st' : State S N V E} (h : Inv P st)
    {args : Dict N V} (hr : reset P st args = some st') : Since P st.calls.length st' := by
  obtain ⟨st'', g1, g2, g3, g4, g5, g6, g7, g8⟩ := reset_eq h args
  rw [hr] at g1
  cases g1
  refine ⟨g2, Nat.le_of_eq (by rw [g7]), ?_, by rw [g3]; simp⟩
  intro j e hj he s hs hrs
  rw [g2.later j e (by rw [g3]; exact hj) he s hs] at hrs
  cases hrs

theorem applyAll_frame {P : Pipeline S N V E} {k : Nat} {l : List S} {d d' : Dict N V} {n : N}
    (hn : ∀ s ∈ l, ¬ Writes P s n) (h : applyAll P k l d = .ok d') : d' n = d n := by
  induction l generalizing k d with
  | nil => cases h; rfl
  | cons s ss ih =>
    unfold applyAll at h
    cases ha : applyStage P k s d with
    | error e => rw [ha] at h; cases h
    | ok d₁ =>
      rw [ha] at h
      rw [ih (fun t ht => hn t (List.mem_cons_of_mem _ ht)) h]
      unfold applyStage at ha
      split at ha
      · cases ha
      · split at ha
        · cases ha
        · rename_i out hr
          cases ha
          exact override_of_not_mem fun hm => hn s List.mem_cons_self ⟨_, _, _, hr, hm⟩

theorem applyEvents_stages {P : Pipeline S N V E} {k : Nat} {l : List S} {d : Dict N V}
    {ev : Event S N V E} (h : ev ∈ applyEvents P k l d) : ev.stage ∈ l := by
  induction l generalizing k d with
  | nil => simp [applyEvents] at h
  | cons s ss ih =>
    unfold applyEvents at h
    split at h
    · simp at h
    · split at h
      · simp at h; rw [h]; simp
      · rcases List.mem_cons.1 h with rfl | h
        · simp
        · exact List.mem_cons_of_mem _ (ih h)

/-- The event of a stage inside a successful run. -/
theorem applyEvents_split {P : Pipeline S N V E} {k : Nat} {l : List S} {d d' : Dict N V}
    (hnd : l.Nodup) (h : applyAll P k l d = .ok d') {ev : Event S N V E}
    (hev : ev ∈ applyEvents P k l d) :
    ∃ pre post d₁, l = pre ++ ev.stage :: post ∧ applyAll P k pre d = .ok d₁ ∧
      ev.inputs = (P.fields ev.stage).filterMap d₁ ∧
      applyAll P (k + pre.length) (ev.stage :: post) d₁ = .ok d' := by
  induction l generalizing k d with
  | nil => simp [applyEvents] at hev
  | cons s ss ih =>
    have h0 := h
    unfold applyAll at h
    rw [applyEvents_cons] at hev
    cases ha : applyStage P k s d with
    | error e => rw [ha] at h; cases h
    | ok d₁ =>
      rw [ha] at h hev
      rcases List.mem_append.1 hev with hev | hev
      · unfold applyEvents at hev
        unfold applyStage at ha
        split at hev
        · simp at hev
        · rename_i hn
          rw [hn] at ha
          simp only at ha
          split at hev
          · rename_i hr; rw [hr] at ha; cases ha
          · rename_i out hr
            simp only [applyEvents, List.mem_cons, List.not_mem_nil, or_false] at hev
            subst hev
            exact ⟨[], ss, d, rfl, rfl, rfl, h0⟩
      · obtain ⟨pre, post, d₂, g1, g2, g3, g4⟩ := ih (List.nodup_cons.1 hnd).2 h hev
        refine ⟨s :: pre, post, d₂, by rw [g1]; rfl, ?_, g3, ?_⟩
        · simp only [applyAll, ha]; exact g2
        · simp only [List.length_cons]
          rw [show k + (pre.length + 1) = k + 1 + pre.length from by omega]
          exact g4

theorem consumes_loop (P : Pipeline S N V E) (l : List S) (st : State S N V E) (g : Gen S N V)
    (st₀ : State S N V E) (hg : genNext P st₀ g = genLoop P st l) :
    ∃ ys, Consumes P st₀ g ys
        (match runStages P l st with | (.error e, _) => .error e | (.ok (), st') => .ok st'.avail)
        (runStages P l st).2 ∧
      (ys.map Prod.fst) <+: l ∧
      ((runStages P l st).1 = .ok () → ys.map Prod.fst = l) := by
  induction l generalizing st g st₀ with
  | nil => exact ⟨[], .stops hg, by simp, by simp⟩
  | cons s ss ih =>
    unfold genLoop at hg
    simp only at hg
    unfold runStages
    cases hr : runStage P st s [] with
    | mk r st' =>
      rw [hr] at hg
      cases r with
      | error e => exact ⟨[], .raises hg, by simp, by simp⟩
      | ok out =>
        obtain ⟨ys, h1, h2, h3⟩ := ih st' (.suspended ss) st' rfl
        refine ⟨(s, out) :: ys, .yields hg h1, ?_, ?_⟩
        · simpa using h2
        · intro h; simp [h3 h]

end Verif.Runner
