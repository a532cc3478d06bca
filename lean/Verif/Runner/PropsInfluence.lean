import Verif.Runner.InfluenceLemmas
/-!
# Property C225: a change in a stage reaches only what is computed from its results
-/
set_option autoImplicit false
set_option linter.unusedSectionVars false

namespace Verif.Runner

open Verif.Builder

variable {S N V E T : Type} [DecidableEq S] [DecidableEq N] [DecidableEq T]

/-- **C225.** In every pipeline that can be built, let some stages be changed - their options, their random
numbers, their code - and some initial values.  Then both runs complete and agree in every name that the change
cannot reach; or both raise the same exception; or in one of them a stage raises that is changed itself or reads
something the change can reach. -/
theorem C225_influence (kind : N × T → Kind S) (B : Builder S (N × T)) (hB : B.stages.Nodup)
    (init : InitArg (N × T)) {π : SetOrder S} {sched : List (List S)} (h : (build cpython kind B π init).1 = .ok sched)
    {run run' : Nat → S → List V → Except E (List (N × V))}
    (declared : ∀ k s vs out, run k s vs = .ok out → ∀ n ∈ out.map Prod.fst, ∃ a ∈ B.outs s, a.1 = n)
    (declared' : ∀ k s vs out, run' k s vs = .ok out → ∀ n ∈ out.map Prod.fst, ∃ a ∈ B.outs s, a.1 = n)
    {changed : S → Prop} {given : N → Prop} (same : ∀ s, ¬ changed s → ∀ k vs, run' k s vs = run k s vs)
    {args args' : Dict N V} (sameArgs : ∀ n, ¬ given n → args' n = args n) (ops ops' : List (Op S N V))
    (calls : (exec (pipelineOf B sched run') ops').st.calls.length =
      (exec (pipelineOf B sched run) ops).st.calls.length) :
    (∃ d d', contents (runAll (pipelineOf B sched run) (exec (pipelineOf B sched run) ops).st args) = .ok d ∧
        contents (runAll (pipelineOf B sched run') (exec (pipelineOf B sched run') ops').st args') = .ok d' ∧
        ∀ n, ¬ Reached B changed given n → d' n = d n) ∨
      (∃ x, contents (runAll (pipelineOf B sched run) (exec (pipelineOf B sched run) ops).st args) = .error x ∧
        contents (runAll (pipelineOf B sched run') (exec (pipelineOf B sched run') ops').st args') = .error x) ∨
      ∃ s x, Touched B changed given s ∧
        (RaisedBy (pipelineOf B sched run) (exec (pipelineOf B sched run) ops).st.calls.length sched.flatten args s x ∨
          RaisedBy (pipelineOf B sched run') (exec (pipelineOf B sched run) ops).st.calls.length sched.flatten args'
            s x) := by
  have hP := built_proper hB h run
  have hP' := built_proper hB h run'
  obtain ⟨g, -⟩ := runFrom_apply hP (exec_inv hP.once ops) args sched [] (by simp [pipelineOf])
  obtain ⟨g', -⟩ := runFrom_apply hP' (exec_inv hP'.once ops') args' sched [] (by simp [pipelineOf])
  rw [calls] at g'
  change contents (runAll (pipelineOf B sched run) _ args) = _ at g
  change contents (runAll (pipelineOf B sched run') _ args') = _ at g'
  rw [g, g']
  refine all_agree (R := Reached B changed given) (touched := Touched B changed given)
    (P := pipelineOf B sched run) (P' := pipelineOf B sched run') rfl sched.flatten _ args args'
    (fun n hn => sameArgs n fun hg => hn (.initial hg)) fun s _ => ⟨fun ht k vs => same s (fun hc => ht (.inl hc)) k vs, fun ht n hn hr => ?_,
      fun ht k vs out ho n hn => ?_, fun ht k vs out ho n hn => ?_⟩
  · obtain ⟨b, hb, rfl⟩ := List.mem_map.1 hn
    exact ht (.inr ⟨b, hb, hr⟩)
  · obtain ⟨a, ha, rfl⟩ := declared k s vs out ho n hn
    rcases ht with hc | ⟨b, hb, hr⟩
    · exact .own hc ha
    · exact .read hb hr ha
  · obtain ⟨a, ha, rfl⟩ := declared' k s vs out ho n hn
    rcases ht with hc | ⟨b, hb, hr⟩
    · exact .own hc ha
    · exact .read hb hr ha

/-! ### A case -/

/-- Two stages that read initial values, and one that reads what the first returns. -/
def fork : Builder Nat (Nat × Unit) where
  stages := [0, 1, 2]
  ins := fun s => match s with | 0 => [(0, ())] | 1 => [(1, ())] | 2 => [(2, ())] | _ => []
  outs := fun s => match s with | 0 => [(2, ())] | 1 => [(3, ())] | 2 => [(4, ())] | _ => []

/-- The first stage adds `c`, the others 1. -/
def forkRun (c : Int) : Nat → Nat → List Int → Except Unit (List (Nat × Int)) :=
  fun _ s vs => match s, vs with
    | 0, [v] => .ok [(2, v + c)]
    | 1, [v] => .ok [(3, v + 1)]
    | 2, [v] => .ok [(4, v + 1)]
    | _, _ => .error ()

theorem forkRun_declared (c : Int) (k s : Nat) (vs : List Int) (out : List (Nat × Int))
    (h : forkRun c k s vs = .ok out) : ∀ n ∈ out.map Prod.fst, ∃ a ∈ fork.outs s, a.1 = n := by
  unfold forkRun at h
  split at h
  · cases h; simp [fork]
  · cases h; simp [fork]
  · cases h; simp [fork]
  · cases h

-- A change in the first stage reaches the names 2 and 4, and not 3; the hypotheses of `C225_influence` hold.
example : (build cpython (fun _ => .plain) fork idOrder (.namedTuple [(0, ()), (1, ())])).1 = .ok [[0, 1], [2]] ∧
    (∀ s, ¬ s = 0 → ∀ k vs, forkRun 10 k s vs = forkRun 1 k s vs) ∧
    (∀ n, Reached fork (fun s => s = 0) (fun _ => False) n ↔ n = 2 ∨ n = 4) ∧
    (contents (runAll (pipelineOf fork [[0, 1], [2]] (forkRun 1)) State.init
      (fun n => if n ≤ 1 then some 5 else none))).toOption.map (fun d => (d 2, d 3, d 4)) =
        some (some 6, some 6, some 7) ∧
    (contents (runAll (pipelineOf fork [[0, 1], [2]] (forkRun 10)) State.init
      (fun n => if n ≤ 1 then some 5 else none))).toOption.map (fun d => (d 2, d 3, d 4)) =
        some (some 15, some 6, some 16) := by
  refine ⟨rfl, fun s hs k vs => ?_, fun n => ⟨fun h => ?_, ?_⟩, by decide, by decide⟩
  · unfold forkRun
    split <;> simp_all
  · induction h with
    | initial h => exact h.elim
    | own h ha => subst h; simp [fork] at ha; simp [ha]
    | @read s a b hb _ ha ih =>
      rcases s with _ | _ | _ | s <;> simp [fork] at hb ha
      · subst hb; simp at ih
      · subst hb; simp at ih
      · subst ha; simp
  · have h2 : Reached fork (fun s => s = 0) (fun _ => False) 2 := .own (s := 0) (a := (2, ())) rfl (by simp [fork])
    rintro (rfl | rfl)
    · exact h2
    · exact .read (s := 2) (a := (4, ())) (b := (2, ())) (by simp [fork]) h2 (by simp [fork])

end Verif.Runner
