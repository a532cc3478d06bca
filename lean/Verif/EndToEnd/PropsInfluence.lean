import Verif.EndToEnd.InfluenceLemmas
import Verif.EndToEnd.PropsThreshold
import Verif.EndToEnd.PropsLevel
/-!
# C225 for the whole pipeline: what the options of a stage can reach
-/
set_option autoImplicit false
set_option linter.unusedSectionVars false

namespace Verif.EndToEnd

open Verif (Num)
open Verif.Pipeline (Stg Name runner defaultStages buildDefault inputs outputs)
open Verif.Metadata (Table Squeezed fromDataFrame)
open Verif.Runner (Dict Op exec runAll contents RunError)

variable {V W G : Type}

private theorem outside_eq {W : Type} {ns : List Name} {d d' : Dict Name (Val V W)} (h : DictRel (Outside ns) d d')
    {n : Name} (hn : n ∉ ns) : d' n = d n := by
  have := h n
  revert this
  generalize d n = u
  generalize d' n = u'
  rintro (hv | _)
  · rw [hv hn]
  · rfl

/-- The options, the random numbers and the libraries of one of the last four stages - PILOT, PYTHIA, CLOISTER or
TRACE - reach only what that stage returns and what is computed from it: if two builds that differ in the
behaviour of this stage only both complete, their outputs agree in every other name. -/
theorem C225_late {lower : String → String} {numeric : Squeezed V → Bool} {str : V → V} {num : V → Num}
    {env : Env V W} {le le' : Nat → Late V W} {t : Table V}
    {rest' : Nat → Stg → List (Val V W) → Except Err (List (Name × Val V W))} {s : Stg}
    (late : s = .pilot ∨ s = .pythia ∨ s = .cloister ∨ s = .trace) (complete : Complete env le)
    (complete' : Complete { env with rest := rest' } le')
    (same : ∀ k u vs, u ≠ s → rest' k u vs = env.rest k u vs)
    {order : List Stg} {π : Builder.SetOrder Stg} {sched : List (List Stg)}
    (horder : order.Perm defaultStages) (hs : buildDefault order π = .ok sched)
    (ops ops' : List (Op Stg Name (Val V W)))
    (calls : (exec (runner order sched (run { env with rest := rest' })) ops').st.calls.length =
      (exec (runner order sched (run env)) ops).st.calls.length) {d d' : Dict Name (Val V W)}
    (h : contents (runAll (runner order sched (run env)) (exec (runner order sched (run env)) ops).st
      (args env num (fromDataFrame lower numeric str t))) = .ok d)
    (h' : contents (runAll (runner order sched (run { env with rest := rest' }))
      (exec (runner order sched (run { env with rest := rest' })) ops').st
      (args { env with rest := rest' } num (fromDataFrame lower numeric str t))) = .ok d') :
    ∀ n, n ∉ downstream s → d' n = d n := by
  rw [contents_apply horder hs] at h h'
  rw [calls] at h'
  have := all_outside (ns := downstream s) (env := env) (env' := { env with rest := rest' }) sched sched.flatten
    (fun u _ k ps hps out out' e e' => late_step late complete.tuples complete'.tuples same u k hps e e')
    (exec (runner order sched (run env)) ops).st.calls.length
    (dict_refl _ (args env num (fromDataFrame lower numeric str t)))
  change Runner.applyAll _ _ _ (args env num (fromDataFrame lower numeric str t)) = _ at h'
  rw [h, h'] at this
  exact fun n hn => outside_eq this hn

/-- If TRACE works on the given performances (`use_sim` is off), the options of PYTHIA do not reach the
footprints either. -/
theorem C225_pythia {lower : String → String} {numeric : Squeezed V → Bool} {str : V → V} {num : V → Num}
    {env : Env V (Kept G)} {le le' : Nat → Late V (Kept G)} {te : Nat → TraceEnv G} {t : Table V}
    {rest' : Nat → Stg → List (Val V (Kept G)) → Except Err (List (Name × Val V (Kept G)))}
    (complete : CompleteTrace env le te) (complete' : CompleteTrace { env with rest := rest' } le' te)
    (actual : ∀ k, (te k).useSim = false)
    (same : ∀ k u vs, u ≠ .pythia → rest' k u vs = env.rest k u vs)
    {order : List Stg} {π : Builder.SetOrder Stg} {sched : List (List Stg)}
    (horder : order.Perm defaultStages) (hs : buildDefault order π = .ok sched)
    (ops ops' : List (Op Stg Name (Val V (Kept G))))
    (calls : (exec (runner order sched (run { env with rest := rest' })) ops').st.calls.length =
      (exec (runner order sched (run env)) ops).st.calls.length) {d d' : Dict Name (Val V (Kept G))}
    (h : contents (runAll (runner order sched (run env)) (exec (runner order sched (run env)) ops).st
      (args env num (fromDataFrame lower numeric str t))) = .ok d)
    (h' : contents (runAll (runner order sched (run { env with rest := rest' }))
      (exec (runner order sched (run { env with rest := rest' })) ops').st
      (args { env with rest := rest' } num (fromDataFrame lower numeric str t))) = .ok d') :
    ∀ n, n ∉ (outputs .pythia).map Prod.fst → d' n = d n := by
  rw [contents_apply horder hs] at h h'
  rw [calls] at h'
  have := all_outside (ns := (outputs .pythia).map Prod.fst) (env := env) (env' := { env with rest := rest' }) sched
    sched.flatten (fun u _ k ps hps out out' e e' => by
      have hsame : ∀ u, u ≠ Stg.pythia → rest' k u = env.rest k u := fun u hu => funext fun vs => same k u vs hu
      cases u with
      | pythia =>
        exact stage_outside hps e e' (.inr ⟨fun _ h => h, complete.complete.tuples _ _ _ _ e,
          complete'.complete.tuples _ _ _ _ e'⟩)
      | trace =>
        have he : runTrace (te k) (ps.map Prod.fst) = .ok out := by
          rw [← e]
          change _ = env.rest k .trace _
          rw [complete.stages]
          exact congrFun (complete.trace k).symm _
        have he' : runTrace (te k) (ps.map Prod.snd) = .ok out' := by
          rw [← e']
          change _ = rest' k .trace _
          rw [same _ _ _ (by decide), complete.stages]
          exact congrFun (complete.trace k).symm _
        rw [trace_actual (actual k) (by decide) hps he he']
        exact outside_refl _ _
      | preprocessing => exact stage_outside hps e e' (.inl ⟨rfl, by decide⟩)
      | prelim => exact stage_outside hps e e' (.inl ⟨rfl, by decide⟩)
      | sifted => exact stage_outside hps e e' (.inl ⟨rfl, by decide⟩)
      | pilot => exact stage_outside hps e e' (.inl ⟨hsame _ (by decide), by decide⟩)
      | cloister => exact stage_outside hps e e' (.inl ⟨hsame _ (by decide), by decide⟩))
    (exec (runner order sched (run env)) ops).st.calls.length
    (dict_refl _ (args env num (fromDataFrame lower numeric str t)))
  change Runner.applyAll _ _ _ (args env num (fromDataFrame lower numeric str t)) = _ at h'
  rw [h, h'] at this
  exact fun n hn => outside_eq this hn

/-- The options, the random numbers and the libraries of SIFTED reach only the features, what is said about their
selection, and the results of the last four stages: the performances, the verdicts, the best algorithms, the raw
tables and the labels stay the same. -/
theorem C225_sifted {lower : String → String} {numeric : Squeezed V → Bool} {str : V → V} {num : V → Num}
    {env env' : Env V W} {le : Nat → Late V W} {t : Table V} (complete : Complete env le)
    (same : env' = { env with lib := env'.lib, pearson := env'.pearson, thr := env'.thr, clusters := env'.clusters })
    {order : List Stg} {π : Builder.SetOrder Stg} {sched : List (List Stg)}
    (horder : order.Perm defaultStages) (hs : buildDefault order π = .ok sched)
    (ops ops' : List (Op Stg Name (Val V W)))
    (calls : (exec (runner order sched (run env')) ops').st.calls.length =
      (exec (runner order sched (run env)) ops).st.calls.length) {d d' : Dict Name (Val V W)}
    (h : contents (runAll (runner order sched (run env)) (exec (runner order sched (run env)) ops).st
      (args env num (fromDataFrame lower numeric str t))) = .ok d)
    (h' : contents (runAll (runner order sched (run env')) (exec (runner order sched (run env')) ops').st
      (args env' num (fromDataFrame lower numeric str t))) = .ok d') :
    ∀ n, n ∉ bySelection → d' n = d n := by
  rw [contents_apply horder hs] at h h'
  rw [calls] at h'
  revert h h'
  generalize (exec (runner order sched (run env)) ops).st.calls.length = k
  have main : ∃ rest, sched.flatten = .preprocessing :: .prelim :: .sifted :: rest ∧
      ∀ s ∈ rest, s = Stg.pilot ∨ s = .pythia ∨ s = .cloister ∨ s = .trace := by
    rcases Pipeline.C10_default_schedule order horder π with h | h <;>
      · rw [hs] at h
        obtain rfl := Except.ok.inj h
        exact ⟨_, rfl, by decide⟩
  obtain ⟨rest, e, hrest⟩ := main
  rw [e]
  generalize hl : env'.lib = lib' at same
  generalize hp : env'.pearson = pearson' at same
  generalize ht : env'.thr = thr' at same
  generalize hc : env'.clusters = clusters' at same
  clear hl hp ht hc
  subst same
  intro h h'
  change Runner.applyAll _ _ _ (args env num (fromDataFrame lower numeric str t)) = _ at h'
  have := each_cons (K := DictRel (Outside bySelection)) (J := DictRel (Outside []))
    (P := ⟨sched, fun s => (inputs s).map Prod.fst, run env⟩)
    (P' := ⟨sched, fun s => (inputs s).map Prod.fst,
      run { env with lib := lib', pearson := pearson', thr := thr', clusters := clusters' }⟩)
    (s := Stg.preprocessing) (ss := .prelim :: .sifted :: rest) (k := k)
    (each_step (by rfl) (dict_refl [] (args env num (fromDataFrame lower numeric str t)))
      (fun ps hps out out' e e' => .inl (stage_outside hps e e' (.inl ⟨rfl, by simp⟩))) fun _ _ h => h)
    fun y y' hy => each_cons (J := DictRel (Outside [])) (each_step (by rfl) hy
      (fun ps hps out out' e e' => .inl (stage_outside (s := .prelim) hps e e' (.inl ⟨rfl, by simp⟩))) fun _ _ h => h)
    fun y y' hy => each_cons (J := DictRel (Outside bySelection)) (sifted_reach sched hy)
    fun y y' hy => all_outside sched rest (fun u hu k ps hps out out' e e' => by
      refine stage_outside hps e e' (.inr ?_)
      rcases hrest u hu with rfl | rfl | rfl | rfl <;>
        exact ⟨by decide, complete.tuples _ _ _ _ e, complete.tuples _ _ _ _ e'⟩) _ hy
  rw [h, h'] at this
  exact fun n hn => outside_eq this hn

/-! ### Cases -/

-- PYTHIA with and without weights: the hypotheses of `C225_late` and `C225_pythia` hold, and both runs complete.
example : ∃ d d', CompleteTrace (allEnv false) (allLate false) (exTrace false) ∧
    CompleteTrace { allEnv false with rest := fun k s vs => runLate (evenLate k) s vs } evenLate (exTrace false) ∧
    (∀ k, (exTrace false k).useSim = false) ∧
    (∀ k u vs, u ≠ Stg.pythia → runLate (evenLate k) u vs = (allEnv false).rest k u vs) ∧
    cleanRun (allEnv false) (cleanTable [4, 1, 5, 3, 3, 4] [2, 0, 1, 1, 2, 1]) = .ok d ∧
    cleanRun { allEnv false with rest := fun k s vs => runLate (evenLate k) s vs }
      (cleanTable [4, 1, 5, 3, 3, 4] [2, 0, 1, 1, 2, 1]) = .ok d' := by
  obtain ⟨d, h1, -⟩ := cleanRun_succeeds (env := allEnv false)
    (t := cleanTable [4, 1, 5, 3, 3, 4] [2, 0, 1, 1, 2, 1]) (by decide +kernel)
  obtain ⟨d', h2, -⟩ := cleanRun_succeeds
    (env := { allEnv false with rest := fun k s vs => runLate (evenLate k) s vs })
    (t := cleanTable [4, 1, 5, 3, 3, 4] [2, 0, 1, 1, 2, 1]) (by decide +kernel)
  refine ⟨d, d', all_complete false, even_complete (allEnv false).prelim, fun _ => rfl, fun k u vs hu => ?_, h1, h2⟩
  cases u with
  | pythia => exact absurd rfl hu
  | _ => rfl

-- Two selections of features: the hypotheses of `C225_sifted` hold, and both runs complete.
example : ∃ d d', Complete wideEnv (allLate false) ∧
    clusterEnv = { wideEnv with
      lib := clusterEnv.lib, pearson := clusterEnv.pearson, thr := clusterEnv.thr, clusters := clusterEnv.clusters } ∧
    cleanRun wideEnv wideTable = .ok d ∧ cleanRun clusterEnv wideTable = .ok d' := by
  obtain ⟨d, h1, -⟩ := cleanRun_succeeds (env := wideEnv) (t := wideTable) (by decide +kernel)
  obtain ⟨d', h2, -⟩ := cleanRun_succeeds (env := clusterEnv) (t := wideTable) (by decide +kernel)
  exact ⟨d, d', wide_complete.complete, rfl, h1, h2⟩

end Verif.EndToEnd
