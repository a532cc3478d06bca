import Verif.Runner.Lemmas
/-! The invariant holds in every reachable state, and `run_all` refines the pure fold. -/
set_option autoImplicit false
set_option linter.unusedSectionVars false

namespace Verif.Runner

variable {S N V E : Type} [DecidableEq S] [DecidableEq N]

theorem Inv.log {P : Pipeline S N V E} {st : State S N V E} (h : Inv P st)
    (ev : Event S N V E) : Inv P { st with calls := st.calls ++ [ev] } where
  len := h.len
  le := h.le
  done := h.done
  later := h.later
  same := h.same
  availLt := h.availLt
  dataLt := h.dataLt
  flagged := by
    intro s hs
    obtain ⟨e, he, h1, h2⟩ := h.flagged s hs
    exact ⟨e, List.mem_append_left _ he, h1, h2⟩

/-- What a call of `run_stage` may do to the state. -/
inductive StageOutcome (P : Pipeline S N V E) (st : State S N V E) (s : S) (kw : List (N × V)) :
    Except (RunError N E) (List (N × V)) × State S N V E → Prop
  | unknown (h : s ∉ P.order.flatten) : StageOutcome P st s kw (.error .unknownStage, st)
  | early (i : Nat) (e : List S) (he : P.order[i]? = some e) (hs : s ∈ e) (hi : st.cur < i) :
      StageOutcome P st s kw (.error .stageRunning, st)
  | missing (i : Nat) (e : List S) (he : P.order[i]? = some e) (hs : s ∈ e) (hi : i ≤ st.cur)
      (n : N) (hn : (P.fields s).find? (fun n => (override st.args kw n).isNone) = some n) :
      StageOutcome P st s kw (.error (.missingArgument n), back P st i)
  | raised (i : Nat) (e : List S) (he : P.order[i]? = some e) (hs : s ∈ e) (hi : i ≤ st.cur)
      (hn : (P.fields s).find? (fun n => (override st.args kw n).isNone) = none) (ex : E)
      (hr : P.run st.calls.length s ((P.fields s).filterMap (override st.args kw)) = .error ex) :
      StageOutcome P st s kw (.error (.stage ex), { back P st i with
        calls := st.calls ++ [⟨s, (P.fields s).filterMap (override st.args kw), .error ex⟩] })
  | ok (i : Nat) (e : List S) (he : P.order[i]? = some e) (hs : s ∈ e) (hi : i ≤ st.cur)
      (hn : (P.fields s).find? (fun n => (override st.args kw n).isNone) = none)
      (out : List (N × V))
      (hr : P.run st.calls.length s ((P.fields s).filterMap (override st.args kw)) = .ok out)
      (st' : State S N V E)
      (hx : ExecOK P (back P st i) s e ((P.fields s).filterMap (override st.args kw)) out st') :
      StageOutcome P st s kw (.ok out, st')

theorem runStage_outcome {P : Pipeline S N V E} (hnd : P.order.flatten.Nodup)
    {st : State S N V E} (h : Inv P st) (s : S) (kw : List (N × V)) :
    StageOutcome P st s kw (runStage P st s kw) := by
  cases hidx : indexOf P.order s with
  | none =>
    rw [runStage_unknown hidx]
    exact .unknown (indexFrom_none.1 hidx)
  | some i =>
    obtain ⟨e, he, hs⟩ := (indexOf_iff hnd).1 hidx
    by_cases hi : i ≤ st.cur
    · rw [runStage_le hnd h hidx hi]
      have hI := h.back hnd hi
      have hargs : (back P st i).args = st.args := rfl
      have hcalls : (back P st i).calls = st.calls := rfl
      cases hn : (P.fields s).find? (fun n => (override st.args kw n).isNone) with
      | some n =>
        rw [execute_missing (by rw [hargs]; exact hn)]
        exact .missing i e he hs hi n hn
      | none =>
        cases hr : P.run st.calls.length s ((P.fields s).filterMap (override st.args kw)) with
        | error ex =>
          rw [execute_error (e := ex) (by rw [hargs]; exact hn) (by rw [hargs, hcalls]; exact hr)]
          exact .raised i e he hs hi hn ex hr
        | ok out =>
          obtain ⟨st', h1, h2⟩ := execute_ok hnd hI (s := s) (kw := kw) (out := out) (e := e)
            (by exact he) hs (by rw [hargs]; exact hn) (by rw [hargs, hcalls]; exact hr)
          rw [h1]
          exact .ok i e he hs hi hn out hr st' h2
    · rw [runStage_gt hidx (by omega)]
      exact .early i e he hs (by omega)

theorem runStage_inv {P : Pipeline S N V E} (hnd : P.order.flatten.Nodup)
    {st : State S N V E} (h : Inv P st) (s : S) (kw : List (N × V)) :
    Inv P (runStage P st s kw).2 := by
  have := runStage_outcome hnd h s kw
  generalize runStage P st s kw = r at this
  cases this with
  | unknown => exact h
  | early => exact h
  | missing i e he hs hi => exact h.back hnd hi
  | raised i e he hs hi => exact (h.back hnd hi).log _
  | ok i e he hs hi hn out hr st' hx => exact hx.inv

/-- The state after the first two statements of `run_all`. -/
theorem reset_eq {P : Pipeline S N V E} {st : State S N V E} (h : Inv P st) (args : Dict N V) :
    ∃ st', reset P st args = some st' ∧ (Inv P st') ∧ st'.cur = 0 ∧ st'.args = args ∧
      st'.avail = st.next ∧ st'.next = st.next + 1 ∧ st'.calls = st.calls ∧
      (∀ r, r ≠ st.next → st'.heap r = st.heap r) := by
  have hlen := h.len
  obtain ⟨d, hd⟩ : ∃ d, st.data[0]? = some d := by
    cases hx : st.data with
    | nil => rw [hx] at hlen; simp at hlen
    | cons a l => exact ⟨a, rfl⟩
  unfold reset rollback
  rw [hd]
  refine ⟨_, rfl, ?_, rfl, ?_, rfl, rfl, rfl, ?_⟩
  · refine ⟨?_, Nat.zero_le _, ?_, ?_, ?_, ?_, ?_, ?_⟩
    · simp only [List.length_take]; omega
    · intro j e hj; simp at hj
    · intro j e hj he s hs
      simp only at hj ⊢
      rw [if_pos]
      refine List.mem_flatten.2 ⟨e, ?_, hs⟩
      apply List.mem_of_getElem? (i := j - 1)
      rw [List.getElem?_drop]
      rwa [show 0 + 1 + (j - 1) = j from by omega]
    · intro j hj; simp at hj
    · simp
    · intro r hr
      have := h.dataLt r (List.mem_of_mem_take hr)
      simp only; omega
    · intro s hs
      simp only at hs ⊢
      split at hs
      · cases hs
      · exact h.flagged s hs
  · simp [State.args]
  · intro r hr
    simp [hr]

theorem runStages_inv {P : Pipeline S N V E} (hnd : P.order.flatten.Nodup) (l : List S)
    {st : State S N V E} (h : Inv P st) : Inv P (runStages P l st).2 := by
  induction l generalizing st with
  | nil => exact h
  | cons s ss ih =>
    unfold runStages
    have := runStage_inv hnd h s ([] : List (N × V))
    split
    · rename_i hr; rw [hr] at this; exact this
    · rename_i hr; rw [hr] at this; exact ih this

theorem runFrom_inv {P : Pipeline S N V E} (hnd : P.order.flatten.Nodup) (l : List S)
    {st : State S N V E} (h : Inv P st) (args : Dict N V) : Inv P (runFrom P st args l).2 := by
  obtain ⟨st', h1, h2, -⟩ := reset_eq h args
  unfold runFrom
  rw [h1]
  have := runStages_inv hnd l h2
  simp only
  split <;> rename_i hr <;> rw [hr] at this <;> exact this

theorem genLoop_inv {P : Pipeline S N V E} (hnd : P.order.flatten.Nodup) (l : List S)
    {st : State S N V E} (h : Inv P st) : Inv P (genLoop P st l).2.2 := by
  cases l with
  | nil => exact h
  | cons s ss =>
    unfold genLoop
    have := runStage_inv hnd h s ([] : List (N × V))
    simp only
    split <;> rename_i hr <;> rw [hr] at this <;> exact this

theorem genNext_inv {P : Pipeline S N V E} (hnd : P.order.flatten.Nodup) (g : Gen S N V)
    {st : State S N V E} (h : Inv P st) : Inv P (genNext P st g).2.2 := by
  cases g with
  | created args =>
    obtain ⟨st', h1, h2, -⟩ := reset_eq h args
    unfold genNext
    simp only [h1]
    exact genLoop_inv hnd _ h2
  | suspended rest => exact genLoop_inv hnd _ h
  | finished => exact h

theorem step_inv {P : Pipeline S N V E} (hnd : P.order.flatten.Nodup) {w : World S N V E}
    (h : Inv P w.st) (op : Op S N V) : Inv P (step P w op).st := by
  cases op with
  | runStage s kw => exact runStage_inv hnd h s kw
  | runAll args => exact runFrom_inv hnd _ h args
  | runUntil stop args => exact runFrom_inv hnd _ h args
  | newIter args => exact h
  | next k =>
    unfold step
    simp only
    split
    · exact h
    · exact genNext_inv hnd _ h

theorem foldl_inv {P : Pipeline S N V E} (hnd : P.order.flatten.Nodup) (ops : List (Op S N V))
    {w : World S N V E} (h : Inv P w.st) : Inv P (ops.foldl (step P) w).st := by
  induction ops generalizing w with
  | nil => exact h
  | cons op ops ih => exact ih (step_inv hnd h op)

/-- Every state reached by any history satisfies the invariant. -/
theorem exec_inv {P : Pipeline S N V E} (hnd : P.order.flatten.Nodup) (ops : List (Op S N V)) :
    Inv P (exec P ops).st := foldl_inv hnd ops (Inv.init P)

/-! ### Refinement of the fold -/

/-- One stage inside a run: the state's dictionary follows `applyStage`. -/
theorem runStage_apply {P : Pipeline S N V E} (hnd : P.order.flatten.Nodup)
    {st : State S N V E} (h : Inv P st) {i : Nat} {e : List S} {s : S}
    (he : P.order[i]? = some e) (hs : s ∈ e) (hi : i ≤ st.cur) :
    (runStage P st s []).2.calls =
      st.calls ++ applyEvents P st.calls.length [s] st.args ∧
    match applyStage P st.calls.length s st.args with
    | .error ex => (runStage P st s []).1 = .error ex
    | .ok d => ∃ out st', runStage P st s [] = (.ok out, st') ∧ st'.args = d ∧ Inv P st' ∧
        st'.avail = st.avail ∧ st'.calls.length = st.calls.length + 1 ∧
        st'.ran = (fun t => if t = s then true else (back P st i).ran t) ∧
        st'.cur = (if e.all st'.ran then i + 1 else i) := by
  have ho := runStage_outcome hnd h s ([] : List (N × V))
  have hov : override st.args ([] : List (N × V)) = st.args := rfl
  unfold applyStage applyEvents
  generalize hr : runStage P st s [] = r at ho
  cases ho with
  | unknown h' => exact absurd (mem_flatten_get he hs) h'
  | early i' e' he' hs' hi' =>
    have := position_unique hnd he he' hs hs'
    omega
  | missing i' e' he' hs' hi' n hn =>
    rw [hov] at hn
    simp [hn, back]
  | raised i' e' he' hs' hi' hn ex hx =>
    rw [hov] at hn hx
    simp [hn, hx, hov]
  | ok i' e' he' hs' hi' hn out hx st' hst =>
    obtain rfl := position_unique hnd he he' hs hs'
    rw [he] at he'
    cases he'
    rw [hov] at hn hx
    simp only [hn, hx]
    refine ⟨by rw [hst.calls, hov]; rfl, out, st', rfl, hst.args, hst.inv, hst.avail, ?_, hst.ran, hst.cur⟩
    rw [hst.calls]
    simp [back]

theorem applyEvents_cons (P : Pipeline S N V E) (k : Nat) (s : S) (ss : List S) (d : Dict N V) :
    applyEvents P k (s :: ss) d = applyEvents P k [s] d ++
      match applyStage P k s d with
      | .error _ => []
      | .ok d' => applyEvents P (k + 1) ss d' := by
  simp only [applyEvents, applyStage]
  split
  · rfl
  · split <;> simp

theorem applyEvents_append (P : Pipeline S N V E) (k : Nat) (l₁ l₂ : List S) (d : Dict N V) :
    applyEvents P k (l₁ ++ l₂) d = applyEvents P k l₁ d ++
      match applyAll P k l₁ d with
      | .error _ => []
      | .ok d' => applyEvents P (k + l₁.length) l₂ d' := by
  induction l₁ generalizing k d with
  | nil => rfl
  | cons s l ih =>
    rw [List.cons_append, applyEvents_cons, applyEvents_cons P k s l, List.append_assoc]
    congr 1
    simp only [applyAll]
    cases applyStage P k s d with
    | error e => rfl
    | ok d' =>
      simp only
      rw [ih]
      simp only [List.length_cons]
      rw [show k + 1 + l.length = k + (l.length + 1) from by omega]

/-- The rest of one schedule element. -/
theorem runStages_element {P : Pipeline S N V E} (hnd : P.order.flatten.Nodup) {j : Nat}
    {e : List S} (he : P.order[j]? = some e) (suf : List S) :
    ∀ (pre : List S), pre ++ suf = e → ∀ (st : State S N V E), Inv P st → j ≤ st.cur →
      (∀ s ∈ pre, st.ran s = true) → (suf = [] → st.cur = j + 1) →
      (runStages P suf st).2.calls = st.calls ++ applyEvents P st.calls.length suf st.args ∧
      match applyAll P st.calls.length suf st.args with
      | .error ex => (runStages P suf st).1 = .error ex
      | .ok d => ∃ st', runStages P suf st = (.ok (), st') ∧ st'.args = d ∧ Inv P st' ∧
          st'.avail = st.avail ∧ st'.cur = j + 1 ∧
          st'.calls.length = st.calls.length + suf.length := by
  induction suf with
  | nil =>
    intro pre _ st h _ _ hfin
    simp only [applyAll, runStages, applyEvents, List.append_nil, true_and]
    exact ⟨st, rfl, rfl, h, rfl, hfin rfl, rfl⟩
  | cons s ss ih =>
    intro pre hpre st h hj hran _
    have hs : s ∈ e := by rw [← hpre]; simp
    obtain ⟨hc1, h1⟩ := runStage_apply hnd h he hs hj
    have hcons := applyEvents_cons P st.calls.length s ss st.args
    simp only [applyAll, runStages]
    cases ha : applyStage P st.calls.length s st.args with
    | error ex =>
      rw [ha] at h1 hcons
      simp only at h1 hcons ⊢
      generalize runStage P st s [] = r at h1 hc1
      obtain ⟨r1, r2⟩ := r
      subst h1
      exact ⟨by rw [hcons, List.append_nil]; exact hc1, rfl⟩
    | ok d =>
      rw [ha] at h1 hcons
      obtain ⟨out, st', h2, h3, h4, h5, h6, h7, h8⟩ := h1
      rw [h2] at hc1
      simp only [h2]
      have hflag : ∀ t ∈ pre ++ [s], st'.ran t = true := by
        intro t ht
        rw [h7]
        by_cases hts : t = s
        · simp [hts]
        · simp only [if_neg hts]
          have htp : t ∈ pre := by simpa [hts] using ht
          have hte : t ∈ e := by rw [← hpre]; exact List.mem_append_left _ htp
          simp only [back]
          rw [if_neg, hran t htp]
          rw [mem_drop_flatten hnd he hte]
          omega
      have hcur : j ≤ st'.cur := by rw [h8]; split <;> omega
      have hfin : ss = [] → st'.cur = j + 1 := by
        rintro rfl
        rw [h8, if_pos]
        rw [List.all_eq_true]
        intro t ht
        rw [← hpre] at ht
        exact hflag t ht
      obtain ⟨hc2, this⟩ := ih (pre ++ [s]) (by simpa using hpre) st' h4 hcur hflag hfin
      rw [h6, h3] at this hc2
      refine ⟨by rw [hc2, hcons, ← List.append_assoc]; exact congrArg (· ++ _) hc1, ?_⟩
      cases ha' : applyAll P (st.calls.length + 1) ss d with
      | error ex => rw [ha'] at this; exact this
      | ok d' =>
        rw [ha'] at this
        obtain ⟨st'', g1, g2, g3, g4, g5, g6⟩ := this
        exact ⟨st'', g1, g2, g3, g4.trans h5, g5, by rw [g6]; simp; omega⟩

theorem applyAll_append (P : Pipeline S N V E) (k : Nat) (l₁ l₂ : List S) (d : Dict N V) :
    applyAll P k (l₁ ++ l₂) d = match applyAll P k l₁ d with
      | .error e => .error e
      | .ok d' => applyAll P (k + l₁.length) l₂ d' := by
  induction l₁ generalizing k d with
  | nil => rfl
  | cons s l ih =>
    simp only [List.cons_append, applyAll]
    cases applyStage P k s d with
    | error e => rfl
    | ok d' =>
      simp only
      rw [ih]
      simp only [List.length_cons]
      rw [show k + 1 + l.length = k + (l.length + 1) from by omega]

theorem runStages_append (P : Pipeline S N V E) (l₁ l₂ : List S) (st : State S N V E) :
    runStages P (l₁ ++ l₂) st = match runStages P l₁ st with
      | (.error e, st) => (.error e, st)
      | (.ok (), st) => runStages P l₂ st := by
  induction l₁ generalizing st with
  | nil => rfl
  | cons s l ih =>
    simp only [List.cons_append, runStages]
    cases h : runStage P st s [] with
    | mk r st' =>
      cases r with
      | error e => rfl
      | ok out => exact ih st'

/-- A run over consecutive elements, starting at the current one. -/
theorem runStages_elements {P : Pipeline S N V E} (hP : P.Proper) (es : List (List S)) :
    ∀ (st : State S N V E), Inv P st → (∀ i e, es[i]? = some e → P.order[st.cur + i]? = some e) →
      (runStages P es.flatten st).2.calls =
        st.calls ++ applyEvents P st.calls.length es.flatten st.args ∧
      match applyAll P st.calls.length es.flatten st.args with
      | .error ex => (runStages P es.flatten st).1 = .error ex
      | .ok d => ∃ st', runStages P es.flatten st = (.ok (), st') ∧ st'.args = d ∧ Inv P st' ∧
          st'.avail = st.avail ∧ st'.cur = st.cur + es.length ∧
          st'.calls.length = st.calls.length + es.flatten.length := by
  induction es with
  | nil =>
    intro st h _
    simp only [List.flatten_nil, applyAll, runStages, applyEvents, List.append_nil, true_and]
    exact ⟨st, rfl, rfl, h, rfl, rfl, rfl⟩
  | cons e es ih =>
    intro st h hes
    have he : P.order[st.cur]? = some e := hes 0 e rfl
    have hne : e ≠ [] := hP.nonempty e (List.mem_of_getElem? he)
    obtain ⟨hc1, h1⟩ := runStages_element hP.once he e [] rfl st h (Nat.le_refl _) (by simp)
      (fun h => absurd h hne)
    simp only [List.flatten_cons]
    rw [applyAll_append, runStages_append, applyEvents_append]
    cases ha : applyAll P st.calls.length e st.args with
    | error ex =>
      rw [ha] at h1
      simp only at h1 ⊢
      generalize runStages P e st = r at h1 hc1
      obtain ⟨r1, r2⟩ := r
      subst h1
      exact ⟨by rw [List.append_nil]; exact hc1, rfl⟩
    | ok d =>
      rw [ha] at h1
      obtain ⟨st', h2, h3, h4, h5, h6, h7⟩ := h1
      rw [h2] at hc1
      simp only [h2]
      obtain ⟨hc2, this⟩ := ih st' h4 (by
        intro i f hf
        rw [h6, show st.cur + 1 + i = st.cur + (i + 1) from by omega]
        exact hes (i + 1) f (by simpa using hf))
      rw [h7, h3] at this hc2
      refine ⟨by rw [hc2, ← List.append_assoc]; exact congrArg (· ++ _) hc1, ?_⟩
      cases ha' : applyAll P (st.calls.length + e.length) es.flatten d with
      | error ex => rw [ha'] at this; exact this
      | ok d' =>
        rw [ha'] at this
        obtain ⟨st'', g1, g2, g3, g4, g5, g6⟩ := this
        refine ⟨st'', g1, g2, g3, g4.trans h5, ?_, ?_⟩
        · rw [g5, h6]; simp; omega
        · rw [g6]; simp; omega

/-- `runFrom` on a prefix of the schedule computes the fold, whatever happened before. -/
theorem runFrom_apply {P : Pipeline S N V E} (hP : P.Proper) {st : State S N V E}
    (h : Inv P st) (args : Dict N V) (es post : List (List S)) (hes : es ++ post = P.order) :
    contents (runFrom P st args es.flatten) = applyAll P st.calls.length es.flatten args ∧
    (runFrom P st args es.flatten).2.calls =
      st.calls ++ applyEvents P st.calls.length es.flatten args ∧
    ∀ d, applyAll P st.calls.length es.flatten args = .ok d →
      (runFrom P st args es.flatten).1 = .ok st.next ∧
      (runFrom P st args es.flatten).2.avail = st.next ∧
      (runFrom P st args es.flatten).2.cur = es.length := by
  obtain ⟨st', h1, h2, h3, h4, h5, h6, h7, h8⟩ := reset_eq h args
  obtain ⟨hc, this⟩ := runStages_elements hP es st' h2 (by
    intro i e he
    rw [h3, ← hes, Nat.zero_add, List.getElem?_append_left (List.getElem?_eq_some_iff.1 he).1, he])
  rw [h7, h4] at this hc
  unfold runFrom
  simp only [h1]
  cases ha : applyAll P st.calls.length es.flatten args with
  | error ex =>
    rw [ha] at this
    simp only at this
    generalize runStages P es.flatten st' = r at this hc
    obtain ⟨r1, r2⟩ := r
    subst this
    exact ⟨rfl, hc, by simp⟩
  | ok d =>
    rw [ha] at this
    obtain ⟨st'', g1, g2, g3, g4, g5, g6⟩ := this
    rw [g1] at hc
    simp only [g1]
    refine ⟨?_, hc, ?_⟩
    · simp only [contents]
      rw [← g2]
      rfl
    · intro _ _
      simp only [g4, h5, g5, h3]
      simp

theorem applyAll_congr {P : Pipeline S N V E} (hdet : P.Deterministic) (k k' : Nat) (l : List S)
    (d : Dict N V) : applyAll P k l d = applyAll P k' l d := by
  induction l generalizing k k' d with
  | nil => rfl
  | cons s ss ih =>
    have : applyStage P k s d = applyStage P k' s d := by
      unfold applyStage
      split
      · rfl
      · rw [hdet k k']
    unfold applyAll
    rw [this]
    split
    · rfl
    · exact ih _ _ _

end Verif.Runner
