import Verif.Runner.Lemmas3
/-!
# Properties C12 - C17, C20, C21, C84, C85 of the stage runner

`exec P ops` is the state after the calls `ops` on a new runner; calls that raise are
included.  `P.Proper` holds for every schedule made by the builder (C01).
-/
set_option autoImplicit false
set_option linter.unusedSectionVars false

namespace Verif.Runner

variable {S N V E : Type} [DecidableEq S] [DecidableEq N]

/-! ### A concrete pipeline used in the examples

Stage 0 reads 10, fails on a negative number, otherwise outputs 11; stage 1 reads 10 and
outputs 12; both are in the first element.  Stage 2 reads 11 and 12, overwrites 10 and
outputs 13. -/

def demo : Pipeline Nat Nat Int String where
  order := [[0, 1], [2]]
  fields := fun s => match s with | 0 => [10] | 1 => [10] | 2 => [11, 12] | _ => []
  run := fun _ s vs => match s, vs with
    | 0, [v] => if v < 0 then .error "negative" else .ok [(11, v + 1)]
    | 1, [v] => .ok [(12, 2 * v)]
    | 2, [a, b] => .ok [(10, a + b), (13, a * b)]
    | _, _ => .error "arity"

def demoArgs (v : Int) : Dict Nat Int := fun n => if n = 10 then some v else none

theorem demo_proper : demo.Proper := ⟨by decide, by decide⟩

theorem demo_deterministic : demo.Deterministic := fun _ _ _ _ => rfl

/-- A history with a success, a failing run, an explicit call with an override and an
abandoned generator. -/
def demoHistory : List (Op Nat Nat Int) :=
  [.runAll (demoArgs 5), .runStage 1 [(10, 7)], .runAll (demoArgs (-3)), .newIter (demoArgs 2),
   .next 0, .runStage 2 []]

/-- The values of some names, for display. -/
def look (r : Except (RunError Nat String) (Dict Nat Int)) (l : List Nat) :
    Except (RunError Nat String) (List (Option Int)) :=
  match r with | .error e => .error e | .ok d => .ok (l.map d)

example : look (contents (runAll demo .init (demoArgs 5))) [10, 11, 12, 13] =
    .ok [some 16, some 6, some 10, some 60] := rfl
example : contents (runAll demo .init (demoArgs (-5))) = .error (.stage "negative") := rfl

/-! ### C12 -/

/-- **C12.** Whatever was done with the runner before, `run_all` gives the fold of the stages
in schedule order over the given inputs: the same exception, or a dictionary with the same
contents.  (Stages may even depend on the number of executions made so far.) -/
theorem C12_run_all (P : Pipeline S N V E) (hP : P.Proper) (ops : List (Op S N V))
    (args : Dict N V) :
    contents (runAll P (exec P ops).st args) =
      applyAll P (exec P ops).st.calls.length P.order.flatten args :=
  (runFrom_apply hP (exec_inv hP.once ops) args P.order [] (by simp)).1

/-- **C12, fresh runner.** With deterministic stages the outcome is that on a new runner. -/
theorem C12_fresh (P : Pipeline S N V E) (hP : P.Proper) (hdet : P.Deterministic)
    (ops : List (Op S N V)) (args : Dict N V) :
    contents (runAll P (exec P ops).st args) = contents (runAll P State.init args) := by
  rw [C12_run_all P hP ops args]
  have := C12_run_all P hP [] args
  simp only [exec, List.foldl_nil] at this
  rw [this]
  exact applyAll_congr hdet _ _ _ _

example : contents (runAll demo (exec demo demoHistory).st (demoArgs 5)) =
    contents (runAll demo .init (demoArgs 5)) :=
  C12_fresh demo demo_proper demo_deterministic demoHistory (demoArgs 5)

/-! ### C13 -/

/-- **C13.** After any history, `run_stage` returns normally only if every stage of every
earlier element has been run successfully; and when it raises `StageRunningError` nothing has
changed. -/
theorem C13_prerequisites (P : Pipeline S N V E) (hnd : P.order.flatten.Nodup)
    (ops : List (Op S N V)) (s : S) (kw : List (N × V)) :
    (∀ out, (runStage P (exec P ops).st s kw).1 = .ok out →
      ∃ (i : Nat) (e : List S), P.order[i]? = some e ∧ s ∈ e ∧
        ∀ (j : Nat) (f : List S), j < i → P.order[j]? = some f → ∀ t ∈ f,
          Succeeded (exec P ops).st.calls t) ∧
    ((runStage P (exec P ops).st s kw).1 = .error .stageRunning →
      (runStage P (exec P ops).st s kw).2 = (exec P ops).st) := by
  have hI := exec_inv hnd ops
  have ho := runStage_outcome hnd hI s kw
  generalize runStage P (exec P ops).st s kw = r at ho
  cases ho with
  | unknown h => simp
  | early i e he hs hi => simp
  | missing i e he hs hi n hn => simp
  | raised i e he hs hi hn ex hr => simp
  | ok i e he hs hi hn out hr st' hx =>
    refine ⟨?_, by simp⟩
    rintro out' -
    refine ⟨i, e, he, hs, ?_⟩
    intro j f hj hf t ht
    exact hI.flagged t (hI.done j f (by omega) hf t ht)

/-- **C13, converse direction.** If a stage of an earlier element has never been run
successfully, `run_stage` raises `StageRunningError`. -/
theorem C13_refused (P : Pipeline S N V E) (hnd : P.order.flatten.Nodup)
    (ops : List (Op S N V)) (s t : S) (kw : List (N × V)) (i j : Nat) (e f : List S)
    (hi : P.order[i]? = some e) (hs : s ∈ e) (hj : P.order[j]? = some f) (ht : t ∈ f)
    (hji : j < i) (hno : ¬ Succeeded (exec P ops).st.calls t) :
    (runStage P (exec P ops).st s kw).1 = .error .stageRunning := by
  have hI := exec_inv hnd ops
  have hcur : (exec P ops).st.cur < i := by
    by_contra hc
    exact hno (hI.flagged t (hI.done j f (by omega) hj t ht))
  rw [runStage_gt ((indexOf_iff hnd).2 ⟨e, hi, hs⟩) hcur]

example : (runStage demo (exec demo [.runAll (demoArgs (-1))]).st 2 []).1 =
    .error .stageRunning := rfl
example : ∃ out, (runStage demo (exec demo demoHistory.reverse).st 2 []).1 = .ok out := ⟨_, rfl⟩
example : ∃ out, (runStage demo (exec demo [.runAll (demoArgs 5)]).st 2 []).1 = .ok out := ⟨_, rfl⟩

/-! ### C14 -/

/-- The documented claim, for a run followed by a single re-run: the stage receives what it
received in the run, because later changes are rolled back. -/
def RerunSeesOriginal (P : Pipeline S N V E) : Prop :=
  ∀ (args : Dict N V) (s : S) (d : Dict N V),
    contents (runAll P State.init args) = .ok d →
    ∀ ev ev', ev ∈ (exec P [.runAll args]).st.calls → ev.stage = s →
      (exec P [.runAll args, .runStage s []]).st.calls =
        (exec P [.runAll args]).st.calls ++ [ev'] → ev'.inputs = ev.inputs

/-- **C14 is false of the code**: all snapshots are one dictionary object, so re-running
stage 0 sees the value stage 2 wrote. -/
theorem C14_refuted : ¬ RerunSeesOriginal demo := by
  intro h
  have := h (demoArgs 5) 0 _ rfl ⟨0, [5], .ok [(11, 6)]⟩ ⟨0, [16], .ok [(11, 17)]⟩
    (by exact List.mem_of_getElem? (i := 0) rfl) rfl rfl
  simp at this

/-- **C14, true part.** If no stage of the element of `s` or of a later one can write any
input of `s`, then re-running `s` after a run gives it the inputs it had in the run.  Missing:
stages whose inputs are overwritten later; for them nothing is restored. -/
theorem C14_partial (P : Pipeline S N V E) (hP : P.Proper) (args : Dict N V) (s : S)
    (i : Nat) (e : List S) (hi : P.order[i]? = some e) (hs : s ∈ e)
    (hw : ∀ (j : Nat) f, i ≤ j → P.order[j]? = some f → ∀ t ∈ f, ∀ n ∈ P.fields s, ¬ Writes P t n)
    (d : Dict N V) (hd : contents (runAll P State.init args) = .ok d) (ev ev' : Event S N V E)
    (hev : ev ∈ (exec P [.runAll args]).st.calls) (hevs : ev.stage = s)
    (hev' : (exec P [.runAll args, .runStage s []]).st.calls =
      (exec P [.runAll args]).st.calls ++ [ev']) : ev'.inputs = ev.inputs := by
  have hI : Inv P (State.init : State S N V E) := Inv.init P
  obtain ⟨h1, h2, h3⟩ := runFrom_apply hP hI args P.order [] (by simp)
  change contents (runFrom P State.init args P.order.flatten) = .ok d at hd
  rw [h1] at hd
  obtain ⟨g1, g2, g3⟩ := h3 d hd
  have hst : (exec P [.runAll args]).st = (runFrom P State.init args P.order.flatten).2 := rfl
  have hst2 : (exec P [.runAll args, .runStage s []]).st =
    (runStage P (runFrom P State.init args P.order.flatten).2 s []).2 := rfl
  rw [hst] at hev hev'
  rw [hst2] at hev'
  have hargs : (runFrom P State.init args P.order.flatten).2.args = d := by
    have := h1
    rw [hd] at this
    unfold contents at this
    rw [g1] at this
    simp only [Except.ok.injEq] at this
    rw [State.args, g2, this]
  have hinp : ev'.inputs = (P.fields s).filterMap d := by
    have ho := runStage_outcome hP.once (runFrom_inv hP.once P.order.flatten hI args) s
      ([] : List (N × V))
    have hov : override (runFrom P State.init args P.order.flatten).2.args ([] : List (N × V)) =
      (runFrom P State.init args P.order.flatten).2.args := rfl
    generalize runStage P (runFrom P State.init args P.order.flatten).2 s [] = r at ho hev'
    cases ho with
    | unknown h => simp at hev'
    | early => simp at hev'
    | missing => simp [back] at hev'
    | raised i' e' he' hs' hi' hn ex hr =>
      simp only [List.append_cancel_left_eq, List.cons.injEq, and_true] at hev'
      rw [← hev', hov, hargs]
    | ok i' e' he' hs' hi' hn out hr st' hx =>
      have := hx.calls
      rw [this] at hev'
      simp only [back, List.append_cancel_left_eq, List.cons.injEq, and_true] at hev'
      rw [← hev', hov, hargs]
  rw [h2] at hev
  simp only [State.init, List.nil_append, List.length_nil] at hev hd
  obtain ⟨pre, post, d₁, k1, k2, k3, k4⟩ := applyEvents_split hP.once hd hev
  rw [hinp, k3, hevs]
  rw [hevs] at k4 k1
  have hpost : ∀ t ∈ s :: post, ∃ (j : Nat) (f : List S), i ≤ j ∧ P.order[j]? = some f ∧ t ∈ f := by
    intro t ht
    -- every stage after `s` in the flattened schedule is in an element not before `i`
    have hdrop : ∀ x ∈ (P.order.take i).flatten, x ∈ pre := by
      intro x hx
      have hsplit : P.order.flatten = (P.order.take i).flatten ++ (P.order.drop i).flatten := by
        rw [← List.flatten_append, List.take_append_drop]
      have hs1 : s ∉ (P.order.take i).flatten := by
        intro hc
        have hnd := hP.once
        rw [hsplit, List.nodup_append] at hnd
        exact hnd.2.2 s hc s ((mem_drop_flatten hP.once hi hs).2 (Nat.le_refl _)) rfl
      rw [hsplit] at k1
      rcases List.append_eq_append_iff.1 k1 with ⟨l, hl1, hl2⟩ | ⟨l, hl1, hl2⟩
      · rw [hl1]; exact List.mem_append_left _ hx
      · cases l with
        | nil => rw [hl1] at hx; simpa using hx
        | cons y l =>
          exfalso
          simp only [List.cons_append, List.cons.injEq] at hl2
          rw [hl1, ← hl2.1] at hs1
          simp at hs1
    have htf : t ∈ P.order.flatten := by rw [k1]; exact List.mem_append_right _ ht
    obtain ⟨f, hf, htf'⟩ := List.mem_flatten.1 htf
    obtain ⟨j, hj⟩ := List.getElem?_of_mem hf
    refine ⟨j, f, ?_, hj, htf'⟩
    by_contra hc
    have : t ∈ (P.order.take i).flatten := by
      refine List.mem_flatten.2 ⟨f, ?_, htf'⟩
      apply List.mem_of_getElem? (i := j)
      rw [List.getElem?_take, if_pos (by omega), hj]
    have hnd := hP.once
    rw [k1, List.nodup_append] at hnd
    exact hnd.2.2 t (hdrop t this) t ht rfl
  apply List.filterMap_congr
  intro n hn
  exact applyAll_frame (fun t ht => by
    obtain ⟨j, f, hj, hf, htf⟩ := hpost t ht
    exact hw j f hj hf t htf n hn) k4

/-- In the demo no stage of element 1 writes 11 or 12, so re-running stage 2 is faithful. -/
example : ∀ (j : Nat) f, 1 ≤ j → demo.order[j]? = some f → ∀ t ∈ f, ∀ n ∈ demo.fields 2,
    ¬ Writes demo t n := by
  intro j f hj hf t ht n hn
  obtain rfl : j = 1 := by
    have := (List.getElem?_eq_some_iff.1 hf).1
    simp [demo] at this
    omega
  simp only [demo, List.getElem?_cons_succ, List.getElem?_cons_zero, Option.some.injEq] at hf
  subst hf
  simp only [List.mem_singleton] at ht
  subst ht
  simp only [demo, List.mem_cons, List.not_mem_nil, or_false] at hn
  rintro ⟨k, vs, out, hr, hm⟩
  simp only [demo] at hr
  split at hr <;> simp_all
  subst hr
  simp at hm
  omega

/-- **C14, what rolling back does.** In every reachable state all dictionaries of finished
elements are the one dictionary `_available_arguments` refers to, so a re-run of any earlier
stage receives the current values, whatever later stages wrote. -/
theorem C14_rerun_sees_current_partial (P : Pipeline S N V E) (hnd : P.order.flatten.Nodup)
    (ops : List (Op S N V)) (s : S) (kw : List (N × V)) (out : List (N × V))
    (h : (runStage P (exec P ops).st s kw).1 = .ok out) :
    (runStage P (exec P ops).st s kw).2.calls = (exec P ops).st.calls ++
      [⟨s, (P.fields s).filterMap (override (exec P ops).st.args kw), .ok out⟩] := by
  have ho := runStage_outcome hnd (exec_inv hnd ops) s kw
  generalize runStage P (exec P ops).st s kw = r at ho h
  cases ho with
  | unknown => simp at h
  | early => simp at h
  | missing => simp at h
  | raised => simp at h
  | ok i e he hs hi hn out' hr st' hx =>
    simp only [Except.ok.injEq] at h
    subst h
    exact hx.calls

/-! ### C15 -/

/-- **C15 is false of the code**, for every pipeline, history and scheduled stage: a call of
`run_until_stage(s)` never runs `s`. -/
theorem C15_refuted (P : Pipeline S N V E) (hP : P.Proper) (ops : List (Op S N V)) (s : S)
    (args : Dict N V) (new : List (Event S N V E))
    (hnew : (runUntil P (exec P ops).st s args).2.calls = (exec P ops).st.calls ++ new) :
    ∀ ev ∈ new, ev.stage ≠ s := by
  have hsplit := List.takeWhile_append_dropWhile (p := fun e => decide (s ∉ e)) (l := P.order)
  obtain ⟨-, h2, -⟩ := runFrom_apply hP (exec_inv hP.once ops) args _ _ hsplit
  unfold runUntil at hnew
  rw [h2] at hnew
  rw [← List.append_cancel_left hnew]
  intro ev hev hc
  have := applyEvents_stages hev
  obtain ⟨e, he, hse⟩ := List.mem_flatten.1 this
  have hp := List.all_eq_true.1 (List.all_takeWhile (p := fun e => decide (s ∉ e)) (l := P.order)) e he
  simp only [decide_eq_true_eq] at hp
  exact hp (hc ▸ hse)

/-- **C15, true part.** `run_until_stage(s)` gives the fold over the elements before the one
that contains `s`, from any history.  Missing: the element of `s`, and `s` itself. -/
theorem C15_partial (P : Pipeline S N V E) (hP : P.Proper) (ops : List (Op S N V)) (s : S)
    (args : Dict N V) (es post : List (List S)) (e : List S) (hes : P.order = es ++ e :: post)
    (hs : s ∈ e) :
    contents (runUntil P (exec P ops).st s args) =
      applyAll P (exec P ops).st.calls.length es.flatten args := by
  have htake : (P.order.takeWhile fun e => decide (s ∉ e)) = es := by
    rw [hes, List.takeWhile_append_of_pos]
    · simp [hs]
    · intro f hf
      simp only [decide_eq_true_eq]
      intro hsf
      have hnd := hP.once
      rw [hes, List.flatten_append, List.nodup_append] at hnd
      exact hnd.2.2 s (List.mem_flatten.2 ⟨f, hf, hsf⟩) s (by simp [hs]) rfl
  unfold runUntil
  rw [htake]
  exact (runFrom_apply hP (exec_inv hP.once ops) args es (e :: post) hes.symm).1

example : look (contents (runUntil demo .init 2 (demoArgs 5))) [10, 11, 12, 13] =
    .ok [some 5, some 6, some 10, none] := rfl
example : look (contents (runUntil demo .init 1 (demoArgs 5))) [10, 11, 12, 13] =
    .ok [some 5, none, none, none] := rfl

/-! ### C16 -/

/-- **C16.** Consuming `run_iter(inputs)` to its end behaves as `run_all(inputs)` in the same
state: same exception or same returned reference, same runner state, and the yielded stages
are the schedule in order (a prefix of it when a stage raises). -/
theorem C16_run_iter (P : Pipeline S N V E) (st : State S N V E) (args : Dict N V) :
    ∃ ys, Consumes P st (.created args) ys (runAll P st args).1 (runAll P st args).2 ∧
      (ys.map Prod.fst) <+: P.order.flatten ∧
      (∀ ref, (runAll P st args).1 = .ok ref → ys.map Prod.fst = P.order.flatten) := by
  unfold runAll runFrom
  cases hr : reset P st args with
  | none => exact ⟨[], .raises (g' := .finished) (by simp only [genNext, hr]), by simp, by simp⟩
  | some st₁ =>
    simp only
    obtain ⟨ys, h1, h2, h3⟩ := consumes_loop P P.order.flatten st₁ (.created args) st
      (by simp only [genNext, hr])
    refine ⟨ys, ?_, h2, ?_⟩
    · cases hs : runStages P P.order.flatten st₁ with
      | mk r st₂ =>
        rw [hs] at h1
        cases r <;> exact h1
    · intro ref hok
      apply h3
      cases hs : runStages P P.order.flatten st₁ with
      | mk r st₂ =>
        rw [hs] at hok
        cases r with
        | error e => cases hok
        | ok u => rfl

/-- **C16, uniqueness.** There is only one way to consume a generator, so the previous
theorem describes every complete consumption. -/
theorem C16_unique (P : Pipeline S N V E) (st : State S N V E) (g : Gen S N V)
    (ys ys' : List (S × List (N × V))) (res res' : Except (RunError N E) Nat)
    (st₁ st₂ : State S N V E) (h : Consumes P st g ys res st₁) (h' : Consumes P st g ys' res' st₂) :
    ys = ys' ∧ res = res' ∧ st₁ = st₂ := by
  induction h generalizing ys' with
  | stops hg => cases h' <;> simp_all
  | raises hg => cases h' <;> simp_all
  | yields hg _ ih =>
    cases h' with
    | stops hg' => simp_all
    | raises hg' => simp_all
    | yields hg' hc =>
      rw [hg] at hg'
      simp only [Prod.mk.injEq, GenOut.yields.injEq] at hg'
      obtain ⟨⟨rfl, rfl⟩, rfl, rfl⟩ := hg'
      obtain ⟨rfl, rfl, rfl⟩ := ih _ hc
      simp

example : (runAll demo (exec demo demoHistory).st (demoArgs 5)).1 = .ok 9 := rfl

/-- **C16, inside a history.** After any calls, making a generator and calling `next` on it at
least once more than there are stages leaves the runner as `run_all` does. -/
theorem C16_history (P : Pipeline S N V E) (ops : List (Op S N V)) (args : Dict N V) (m : Nat)
    (hm : P.order.flatten.length < m) :
    (exec P (ops ++ .newIter args :: List.replicate m (.next (exec P ops).gens.length))).st =
      (runAll P (exec P ops).st args).2 := by
  obtain ⟨ys, h, hpre, -⟩ := C16_run_iter P (exec P ops).st args
  have hlen : ys.length < m := by
    have := hpre.length_le
    rw [List.length_map] at this
    omega
  rw [exec, List.foldl_append, List.foldl_cons]
  exact foldl_next h _ (by simp [exec, step]) rfl hlen

/-- Three stages, four calls of `next`. -/
example : (exec demo (demoHistory ++ .newIter (demoArgs 5) :: List.replicate 4 (.next 1))).st.calls.length =
    (exec demo demoHistory).st.calls.length + 3 := rfl

/-! ### C17 -/

/-- **C17.** If `run_stage` raises, no dictionary changes, the available arguments are the
same object with the same contents, no stage becomes marked as run, and no successful
execution was recorded. -/
theorem C17_failure_harmless (P : Pipeline S N V E) (hnd : P.order.flatten.Nodup)
    (ops : List (Op S N V)) (s : S) (kw : List (N × V)) (ex : RunError N E)
    (h : (runStage P (exec P ops).st s kw).1 = .error ex) :
    (runStage P (exec P ops).st s kw).2.heap = (exec P ops).st.heap ∧
    (runStage P (exec P ops).st s kw).2.avail = (exec P ops).st.avail ∧
    (∀ t, (runStage P (exec P ops).st s kw).2.ran t = true → (exec P ops).st.ran t = true) ∧
    (∀ t, Succeeded (runStage P (exec P ops).st s kw).2.calls t →
      Succeeded (exec P ops).st.calls t) := by
  have ho := runStage_outcome hnd (exec_inv hnd ops) s kw
  have hback : ∀ i t, (back P (exec P ops).st i).ran t = true → (exec P ops).st.ran t = true := by
    intro i t ht
    simp only [back] at ht
    split at ht
    · cases ht
    · exact ht
  generalize runStage P (exec P ops).st s kw = r at ho h
  cases ho with
  | unknown => exact ⟨rfl, rfl, fun _ h => h, fun _ h => h⟩
  | early => exact ⟨rfl, rfl, fun _ h => h, fun _ h => h⟩
  | missing i => exact ⟨rfl, rfl, hback i, fun _ h => h⟩
  | raised i e he hs hi hn ex' hr =>
    refine ⟨rfl, rfl, hback i, ?_⟩
    rintro t ⟨ev, hev, h1, out, h2⟩
    rcases List.mem_append.1 hev with hev | hev
    · exact ⟨ev, hev, h1, out, h2⟩
    · simp only [List.mem_singleton] at hev
      subst hev
      cases h2
  | ok => simp at h

/-- **C17, afterwards.** After a call that raised, `run_all` behaves as on a new runner. -/
theorem C17_recovers (P : Pipeline S N V E) (hP : P.Proper) (hdet : P.Deterministic)
    (ops : List (Op S N V)) (s : S) (kw : List (N × V)) (args : Dict N V) :
    contents (runAll P (runStage P (exec P ops).st s kw).2 args) =
      contents (runAll P State.init args) := by
  have := C12_fresh P hP hdet (ops ++ [.runStage s kw]) args
  rw [exec, List.foldl_append] at this
  exact this

example : (runStage demo (exec demo demoHistory).st 0 [(10, -4)]).1 = .error (.stage "negative") :=
  rfl

/-! ### C20 -/

/-- The claim: later calls do not change the dictionary `run_all` returned. -/
def ReturnedIsSnapshot (P : Pipeline S N V E) : Prop :=
  ∀ (ops more : List (Op S N V)) (args : Dict N V) (ref : Nat),
    (runAll P (exec P ops).st args).1 = .ok ref →
    (exec P (ops ++ .runAll args :: more)).st.heap ref =
      (runAll P (exec P ops).st args).2.heap ref

/-- **C20 is false of the code**: `run_all` returns the live dictionary. -/
theorem C20_refuted : ¬ ReturnedIsSnapshot demo := by
  intro h
  have := congrFun (h [] [.runStage 0 []] (demoArgs 5) 2 rfl) 11
  revert this
  decide

/-- **C20, true part.** Once a call of `run_all` or `run_until_stage` has been made, the
dictionary returned earlier is never changed any more, whatever is called later.  Missing:
`run_stage` and generator steps made before that, which do change it. -/
theorem C20_partial (P : Pipeline S N V E) (hP : P.Proper) (ops : List (Op S N V))
    (args : Dict N V) (ref : Nat) (h : (runAll P (exec P ops).st args).1 = .ok ref)
    (op : Op S N V) (hop : (∃ a, op = .runAll a) ∨ ∃ s a, op = .runUntil s a)
    (more : List (Op S N V)) :
    (exec P (ops ++ .runAll args :: op :: more)).st.heap ref =
      (runAll P (exec P ops).st args).2.heap ref := by
  have hI := exec_inv hP.once ops
  have hI' := runFrom_inv hP.once P.order.flatten hI args
  obtain ⟨h1, -, h3⟩ := runFrom_apply hP hI args P.order [] (by simp)
  have hd : ∃ d, applyAll P (exec P ops).st.calls.length P.order.flatten args = .ok d := by
    rw [← h1]
    unfold contents
    change (runFrom P (exec P ops).st args P.order.flatten).1 = .ok ref at h
    rw [h]
    exact ⟨_, rfl⟩
  obtain ⟨d, hd⟩ := hd
  obtain ⟨g1, g2, -⟩ := h3 d hd
  change (runFrom P (exec P ops).st args P.order.flatten).1 = .ok ref at h
  rw [h] at g1
  simp only [Except.ok.injEq] at g1
  rw [exec, List.foldl_append, List.foldl_cons, List.foldl_cons]
  have hst : (step P (List.foldl (step P) ⟨.init, []⟩ ops) (.runAll args)).st =
    (runFrom P (exec P ops).st args P.order.flatten).2 := rfl
  generalize step P (List.foldl (step P) ⟨.init, []⟩ ops) (.runAll args) = w at hst
  change _ = (runFrom P (exec P ops).st args P.order.flatten).2.heap ref
  rw [← hst] at hI' g2 ⊢
  have key : ∀ l a, ref < (runFrom P w.st a l).2.next ∧ ref ≠ (runFrom P w.st a l).2.avail ∧
      (runFrom P w.st a l).2.heap ref = w.st.heap ref := by
    intro l a
    obtain ⟨st', k1, k2, k3, k4, k5, k6, k7, k8⟩ := reset_eq hI' a
    have hlt := hI'.availLt
    exact (runFrom_preserves (P := P)
      (Q := fun st => Inv P st ∧ ref < st.next ∧ ref ≠ st.avail ∧ st.heap ref = w.st.heap ref)
      (by
        rintro st s kw ⟨h1, h2, h3, h4⟩
        obtain ⟨g1, g2, g3⟩ := runStage_avail hP.once h1 s kw
        exact ⟨runStage_inv hP.once h1 s kw, by omega, by rw [g1]; exact h3, by rw [g3 _ h2 h3, h4]⟩)
      l k1 ⟨k2, by omega, by omega, k8 ref (by omega)⟩).2
  rcases hop with ⟨a, rfl⟩ | ⟨s, a, rfl⟩
  · obtain ⟨k1, k2, k3⟩ := key P.order.flatten a
    rw [detached hP.once (w := step P w (.runAll a)) (step_inv hP.once hI' _) k1 k2]
    exact k3
  · obtain ⟨k1, k2, k3⟩ := key (P.order.takeWhile fun e => s ∉ e).flatten a
    rw [detached hP.once (w := step P w (.runUntil s a)) (step_inv hP.once hI' _) k1 k2]
    exact k3

example : (exec demo ([] ++ .runAll (demoArgs 5) :: .runAll (demoArgs 1) ::
    [.runStage 0 [], .runStage 1 [(10, 3)]])).st.heap 2 =
      (runAll demo (exec demo []).st (demoArgs 5)).2.heap 2 :=
  C20_partial demo demo_proper [] (demoArgs 5) 2 rfl _ (.inl ⟨_, rfl⟩) _

/-! ### C21 -/

/-- **C21.** The stage receives the stored arguments overridden by the keyword arguments;
afterwards every stored argument that the stage did not output is as before the call, so the
overrides are gone. -/
theorem C21_kwargs_local (P : Pipeline S N V E) (hnd : P.order.flatten.Nodup)
    (ops : List (Op S N V)) (s : S) (kw out : List (N × V))
    (h : (runStage P (exec P ops).st s kw).1 = .ok out) :
    (∃ ev, (runStage P (exec P ops).st s kw).2.calls = (exec P ops).st.calls ++ [ev] ∧
      ev.inputs = (P.fields s).filterMap (override (exec P ops).st.args kw)) ∧
    (∀ n, n ∉ out.map Prod.fst →
      (runStage P (exec P ops).st s kw).2.args n = (exec P ops).st.args n) ∧
    (∀ n, n ∈ out.map Prod.fst → ∃ v, (n, v) ∈ out ∧
      (runStage P (exec P ops).st s kw).2.args n = some v) := by
  have hc := C14_rerun_sees_current_partial P hnd ops s kw out h
  refine ⟨⟨_, hc, rfl⟩, ?_⟩
  have ho := runStage_outcome hnd (exec_inv hnd ops) s kw
  generalize runStage P (exec P ops).st s kw = r at ho h
  cases ho with
  | unknown => simp at h
  | early => simp at h
  | missing => simp at h
  | raised => simp at h
  | ok i e he hs hi hn out' hr st' hx =>
    simp only [Except.ok.injEq] at h
    subst h
    have hargs : st'.args = override (exec P ops).st.args out' := hx.args
    refine ⟨fun n hn => ?_, fun n hn => ?_⟩
    · rw [hargs, override_of_not_mem hn]
    · rw [hargs]
      exact override_of_mem hn

example : (runStage demo (exec demo [.runAll (demoArgs 5)]).st 1 [(10, 7)]).1 = .ok [(12, 14)] := rfl
example : (exec demo [.runAll (demoArgs 5), .runStage 1 [(10, 7)]]).st.args 10 = some 16 := rfl

/-! ### C84 -/

/-- The claim: after a new start, a stage runs only if all stages of earlier elements have
been run successfully since that start. -/
def PrerequisitesSinceStart (P : Pipeline S N V E) : Prop :=
  ∀ (ops more : List (Op S N V)) (args : Dict N V) (s : S) (kw out : List (N × V)),
    (∀ op ∈ more, ∃ t kw, op = .runStage t kw) →
    (runStage P (exec P (ops ++ .runAll args :: more)).st s kw).1 = .ok out →
    ∀ (i j : Nat) (e f : List S), P.order[i]? = some e → s ∈ e → j < i → P.order[j]? = some f →
      ∀ t ∈ f, Succeeded ((exec P (ops ++ .runAll args :: more)).st.calls.drop
        (exec P ops).st.calls.length) t

/-- **C84 is false of the code**: the flags of the first element survive a restart.  Here
stage 0 fails in the second run, yet after running stage 1 alone stage 2 is accepted. -/
theorem C84_refuted : ¬ PrerequisitesSinceStart demo := by
  intro h
  have := h [.runAll (demoArgs 5)] [.runStage 1 []] (demoArgs (-1)) 2 [(11, 0)] _
    (by simp) rfl 1 0 [2] [0, 1] rfl (by simp) (by omega) rfl 0 (by simp)
  obtain ⟨ev, h1, h2, out, h3⟩ := this
  have hc : ((exec demo ([.runAll (demoArgs 5)] ++ .runAll (demoArgs (-1)) ::
      [.runStage 1 []])).st.calls.drop
        (exec demo [.runAll (demoArgs 5)]).st.calls.length) =
      [⟨0, [-1], .error "negative"⟩, ⟨1, [-1], .ok [(12, -2)]⟩] := rfl
  rw [hc] at h1
  simp only [List.mem_cons, List.not_mem_nil, or_false] at h1
  rcases h1 with rfl | rfl
  · cases h3
  · cases h2

/-- **C84, true part.** It holds for all stages outside the first element, and at least one
stage of the first element has been run since the start (so it holds completely when the
first element is a single stage, as in the default pipeline).  Missing: the other stages of
the first element. -/
theorem C84_partial (P : Pipeline S N V E) (hnd : P.order.flatten.Nodup)
    (ops more : List (Op S N V)) (args : Dict N V) (s : S) (kw out : List (N × V))
    (hmore : ∀ op ∈ more, ∃ t kw, op = .runStage t kw)
    (h : (runStage P (exec P (ops ++ .runAll args :: more)).st s kw).1 = .ok out)
    (i j : Nat) (e f : List S) (hi : P.order[i]? = some e) (hs : s ∈ e) (hj : j < i)
    (hf : P.order[j]? = some f) :
    (0 < j → ∀ t ∈ f, Succeeded ((exec P (ops ++ .runAll args :: more)).st.calls.drop
        (exec P ops).st.calls.length) t) ∧
    (j = 0 → ∃ t ∈ f, Succeeded ((exec P (ops ++ .runAll args :: more)).st.calls.drop
        (exec P ops).st.calls.length) t) := by
  have hI := exec_inv hnd ops
  obtain ⟨st', k1, -⟩ := reset_eq hI args
  have hsince : Since P (exec P ops).st.calls.length
      (exec P (ops ++ .runAll args :: more)).st := by
    rw [show exec P (ops ++ .runAll args :: more) = List.foldl (step P) (step P (exec P ops)
      (.runAll args)) more from by rw [exec, List.foldl_append, List.foldl_cons]; rfl]
    have h0 : Since P (exec P ops).st.calls.length
        (step P (exec P ops) (.runAll args)).st :=
      runFrom_preserves (P := P) (Q := Since P (exec P ops).st.calls.length)
        (fun st s kw h => h.runStage hnd s kw) _ k1 (Since.start hI k1)
    generalize step P (exec P ops) (.runAll args) = w at h0
    clear h
    induction more generalizing w with
    | nil => exact h0
    | cons op more ih =>
      rw [List.foldl_cons]
      apply ih (fun op hop => hmore op (List.mem_cons_of_mem _ hop))
      obtain ⟨t, kw', rfl⟩ := hmore op List.mem_cons_self
      exact h0.runStage hnd t kw'
  have hcur : i ≤ (exec P (ops ++ .runAll args :: more)).st.cur := by
    by_contra hc
    rw [runStage_gt ((indexOf_iff hnd).2 ⟨e, hi, hs⟩) (by omega)] at h
    cases h
  refine ⟨fun h0 t ht => ?_, ?_⟩
  · exact hsince.flags j f h0 hf t ht (hsince.inv.done j f (by omega) hf t ht)
  · rintro rfl
    obtain ⟨f', hf', t, ht, h'⟩ := hsince.first (by omega)
    rw [hf] at hf'
    cases hf'
    exact ⟨t, ht, h'⟩

example : ∃ out, (runStage demo (exec demo ([.runAll (demoArgs 5)] ++ .runAll (demoArgs 1) ::
    [.runStage 1 []])).st 2 []).1 = .ok out := ⟨_, rfl⟩

/-! ### C85 -/

/-- **C85.** The bookkeeping of the runner never goes out of range: no call of `run_stage`,
`run_all` or `run_until_stage` raises `IndexError`, and in a run over the schedule neither
`StageRunningError` nor an unknown stage occurs. -/
theorem C85_no_internal_error (P : Pipeline S N V E) (hP : P.Proper) (ops : List (Op S N V)) :
    (∀ s kw, (runStage P (exec P ops).st s kw).1 ≠ .error .indexError) ∧
    (∀ args e, (runAll P (exec P ops).st args).1 = .error e →
      (∃ n, e = .missingArgument n) ∨ ∃ x, e = .stage x) ∧
    (∀ s args e, (runUntil P (exec P ops).st s args).1 = .error e →
      (∃ n, e = .missingArgument n) ∨ ∃ x, e = .stage x) := by
  have hall : ∀ (l : List S) k d e, applyAll P k l d = .error e →
      (∃ n, e = .missingArgument n) ∨ ∃ x, e = .stage x := by
    intro l
    induction l with
    | nil => intro k d e h; cases h
    | cons s ss ih =>
      intro k d e h
      unfold applyAll at h
      cases ha : applyStage P k s d with
      | ok d' => rw [ha] at h; exact ih _ _ _ h
      | error e' =>
        rw [ha] at h
        cases h
        unfold applyStage at ha
        split at ha
        · rename_i n _
          cases ha
          exact .inl ⟨n, rfl⟩
        · split at ha
          · rename_i x _
            cases ha
            exact .inr ⟨x, rfl⟩
          · cases ha
  have hfrom : ∀ es post, es ++ post = P.order → ∀ args e,
      (runFrom P (exec P ops).st args es.flatten).1 = .error e →
      (∃ n, e = .missingArgument n) ∨ ∃ x, e = .stage x := by
    intro es post hes args e h
    have h1 := (runFrom_apply hP (exec_inv hP.once ops) args es post hes).1
    unfold contents at h1
    rw [h] at h1
    exact hall _ _ _ _ h1.symm
  refine ⟨?_, ?_, ?_⟩
  · intro s kw
    have ho := runStage_outcome hP.once (exec_inv hP.once ops) s kw
    generalize runStage P (exec P ops).st s kw = r at ho
    cases ho <;> simp
  · intro args e h
    exact hfrom P.order [] (by simp) args e h
  · intro s args e h
    exact hfrom _ _ (List.takeWhile_append_dropWhile (p := fun e => decide (s ∉ e))) args e h

end Verif.Runner
