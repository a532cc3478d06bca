import Verif.EndToEnd.LevelLemmas
import Verif.EndToEnd.PropsShift
/-!
# C211: the unit and the zero point of the performances, for the whole pipeline
-/
set_option autoImplicit false
set_option linter.unusedSectionVars false

namespace Verif.EndToEnd

open Verif (Num)
open Verif.Pipeline (Stg Name runner defaultStages buildDefault outputs)
open Verif.Metadata (Table Squeezed Begins fromDataFrame)
open Verif.Runner (Dict Op exec runAll contents RunError)

variable {V W G : Type}

private theorem level_run {lower : String → String} {numeric : Squeezed V → Bool} {str : V → V}
    {num : V → Num} {env : Env V (Kept G)} {le : Nat → Late V (Kept G)} {te : Nat → TraceEnv G}
    {t t' : Table V} {f : Num → Num} {p : Num → Prop} {o' : Prelim.Opts}
    (hc : CompleteTrace env le te) (hv : TrainedOnVerdicts le)
    (hl : Prelim.SameLevel env.prelim o' f p) (ht : Rescaled lower num f t t')
    (hp : ∀ c ∈ t.cols, Begins lower "algo_" c.1 → ∀ v ∈ c.2, p (num v))
    {order : List Stg} {π : Builder.SetOrder Stg} {sched : List (List Stg)}
    (horder : order.Perm defaultStages) (hs : buildDefault order π = .ok sched)
    (ops ops' : List (Op Stg Name (Val V (Kept G))))
    (hk : (exec (runner order sched (run { env with prelim := o' })) ops').st.calls.length =
      (exec (runner order sched (run env)) ops).st.calls.length) :
    SameButUnit f
      (contents (runAll (runner order sched (run env)) (exec (runner order sched (run env)) ops).st
        (args env num (fromDataFrame lower numeric str t))))
      (contents (runAll (runner order sched (run { env with prelim := o' }))
        (exec (runner order sched (run { env with prelim := o' })) ops').st
        (args { env with prelim := o' } num (fromDataFrame lower numeric str t')))) := by
  rw [contents_apply horder hs, contents_apply horder hs, hk]
  generalize (exec (runner order sched (run env)) ops).st.calls.length = k
  have hd := args_level (numeric := numeric) (str := str) (env := env) o' ht hp
  have main : ∃ rest, sched.flatten = .preprocessing :: .prelim :: rest ∧
      ∀ s ∈ rest, s = Stg.sifted ∨ s = .pilot ∨ s = .pythia ∨ s = .cloister ∨ s = .trace := by
    rcases Pipeline.C10_default_schedule order horder π with h | h <;>
      · rw [hs] at h
        obtain rfl := Except.ok.inj h
        exact ⟨_, rfl, by decide⟩
  obtain ⟨rest, e, hrest⟩ := main
  rw [e]
  have h := applyAll_level hc hv hl hc.complete.tuples sched rest hrest k _ _ hd
  have hraw := @applyAll_raw _ _ env sched rest k (args env num (fromDataFrame lower numeric str t))
  revert h hraw
  generalize Runner.applyAll ⟨sched, fun s => (Pipeline.inputs s).map Prod.fst, run env⟩ k
    (.preprocessing :: .prelim :: rest) (args env num (fromDataFrame lower numeric str t)) = a
  generalize Runner.applyAll ⟨sched, fun s => (Pipeline.inputs s).map Prod.fst, run { env with prelim := o' }⟩ k
    (.preprocessing :: .prelim :: rest)
    (args { env with prelim := o' } num (fromDataFrame lower numeric str t')) = b
  intro h hraw
  cases a <;> cases b
  · exact h
  · exact h
  · exact h
  · rename_i d d'
    obtain ⟨r1, r2⟩ := hraw rfl
    refine ⟨fun n hn => ?_, ?_, ?_⟩
    · have h1 : n ∉ [Name.algorithms, .y_raw] ++ [.y_best, .min_y, .pythia_summary] := hn
      have := h n
      revert this
      generalize d n = u
      generalize d' n = u'
      rintro (hv | _)
      · rw [(urel_eq h1).1 hv]
      · rfl
    · have := h .y_raw
      revert this r1
      generalize d .y_raw = u
      generalize d' .y_raw = u'
      rintro r1 (h | _)
      · obtain ⟨m, rfl, rfl, -⟩ := (urel_table (by decide)).1 h
        exact ⟨m, rfl, rfl⟩
      · cases r1
    · have := h .y_best
      revert this r2
      generalize d .y_best = u
      generalize d' .y_best = u'
      rintro r2 (h | _)
      · obtain ⟨l, rfl, rfl⟩ := (urel_best (by decide)).1 h
        exact ⟨l, rfl, rfl⟩
      · cases r2

/-- **C211 (unit).** With a relative threshold and without normalisation, and with the classifiers trained on
the coordinates and the verdicts, it does not matter in which unit the performances are given: on two tables
whose performances differ by a positive factor, none of them zero, `run_all` raises the same exception, or
gives the same output except for the performances themselves, the best ones, the smallest relative one and
PYTHIA's table of averages; the raw and the best performances are converted. -/
theorem C211_unit {lower : String → String} {numeric : Squeezed V → Bool} {str : V → V} {num : V → Num}
    {env : Env V (Kept G)} {le : Nat → Late V (Kept G)} {te : Nat → TraceEnv G} {t t' : Table V} {c : ℚ}
    (complete : CompleteTrace env le te) (blind : TrainedOnVerdicts le)
    (relative : env.prelim.absPerf = false) (plain : env.prelim.norm = false)
    (positive : 0 < c) (ht : Rescaled lower num (fun v => v * .fin c) t t')
    (nonzero : ∀ col ∈ t.cols, Begins lower "algo_" col.1 → ∀ v ∈ col.2, num v ≠ 0)
    {order : List Stg} {π : Builder.SetOrder Stg} {sched : List (List Stg)}
    (horder : order.Perm defaultStages) (hs : buildDefault order π = .ok sched)
    (ops : List (Op Stg Name (Val V (Kept G)))) :
    SameButUnit (fun v => v * .fin c)
      (contents (runAll (runner order sched (run env)) (exec (runner order sched (run env)) ops).st
        (args env num (fromDataFrame lower numeric str t))))
      (contents (runAll (runner order sched (run env)) (exec (runner order sched (run env)) ops).st
        (args env num (fromDataFrame lower numeric str t')))) :=
  level_run (o' := env.prelim) complete blind (Prelim.level_unit relative plain positive) ht nonzero horder hs
    ops ops rfl

/-- **C211 (zero point).** With an absolute threshold and with normalisation, and with the classifiers trained
on the coordinates and the verdicts, it does not matter from where the performances are measured: if the same
number is added to every performance and to the threshold, a first `run_all` raises the same exception, or gives
the same output except for the performances themselves, the best ones, the smallest one and PYTHIA's table of
averages; the raw and the best performances are moved. -/
theorem C211_zero {lower : String → String} {numeric : Squeezed V → Bool} {str : V → V} {num : V → Num}
    {env : Env V (Kept G)} {le : Nat → Late V (Kept G)} {te : Nat → TraceEnv G} {t t' : Table V} {c : ℚ}
    (complete : CompleteTrace env le te) (blind : TrainedOnVerdicts le)
    (absolute : env.prelim.absPerf = true) (normalised : env.prelim.norm = true)
    (ht : Rescaled lower num (fun v => v + .fin c) t t')
    {order : List Stg} {π : Builder.SetOrder Stg} {sched : List (List Stg)}
    (horder : order.Perm defaultStages) (hs : buildDefault order π = .ok sched) :
    SameButUnit (fun v => v + .fin c)
      (contents (runAll (runner order sched (run env)) Runner.State.init
        (args env num (fromDataFrame lower numeric str t))))
      (contents (runAll
        (runner order sched (run { env with prelim :=
          { env.prelim with epsilon := env.prelim.epsilon + .fin c } })) Runner.State.init
        (args env num (fromDataFrame lower numeric str t')))) :=
  level_run (p := fun _ => True) complete blind (Prelim.level_zero absolute normalised c) ht
    (fun _ _ _ _ _ => trivial) horder hs [] [] rfl

/-- The late stages of the example without weights. -/
def evenLate (k : Nat) : Late Nat (Kept (List (ℚ × ℚ))) := { allLate false k with useWeights := false }

/-- The environment of the example without weights, with the given options of PRELIM. -/
def evenEnv (o : Prelim.Opts) : Env Nat (Kept (List (ℚ × ℚ))) :=
  { allEnv false with prelim := o, rest := fun k s vs => runLate (evenLate k) s vs }

theorem even_complete (o : Prelim.Opts) : CompleteTrace (evenEnv o) evenLate (exTrace false) where
  stages _ _ _ := rfl
  trace _ := rfl
  laws _ := dots_laws
  order _ _ := List.reverse_perm _

theorem even_blind : TrainedOnVerdicts evenLate := fun _ => ⟨rfl, fun _ _ _ _ => rfl⟩

-- Seconds and milliseconds: the hypotheses of `C211_unit` hold, and both runs complete.
example :
    CompleteTrace (evenEnv ⟨false, false, .fin (1/2), .fin (1/2), false, false⟩) evenLate (exTrace false) ∧
    TrainedOnVerdicts evenLate ∧ (0 : ℚ) < 1000 ∧
    Rescaled id lateNum (fun v => v * .fin 1000) (cleanTable [4, 1, 5, 3, 3, 4] [2, 3, 1, 1, 2, 1])
      (cleanTable [4000, 1000, 5000, 3000, 3000, 4000] [2000, 3000, 1000, 1000, 2000, 1000]) ∧
    (∀ col ∈ (cleanTable [4, 1, 5, 3, 3, 4] [2, 3, 1, 1, 2, 1]).cols, Begins id "algo_" col.1 →
      ∀ v ∈ col.2, lateNum v ≠ 0) ∧
    raisedIn (cleanRun (evenEnv ⟨false, false, .fin (1/2), .fin (1/2), false, false⟩)
      (cleanTable [4, 1, 5, 3, 3, 4] [2, 3, 1, 1, 2, 1])) = 0 ∧
    raisedIn (cleanRun (evenEnv ⟨false, false, .fin (1/2), .fin (1/2), false, false⟩)
      (cleanTable [4000, 1000, 5000, 3000, 3000, 4000] [2000, 3000, 1000, 1000, 2000, 1000])) = 0 := by
  refine ⟨even_complete _, even_blind, by norm_num, ⟨rfl, ?_⟩, ?_, by decide +kernel, by decide +kernel⟩
  · unfold cleanTable
    refine .cons ?_ (.cons ?_ (.cons ?_ (.cons ?_ (.cons ?_ .nil)))) <;>
      refine ⟨rfl, fun h => ?_, fun h => ?_⟩
    all_goals
      first
      | rfl
      | exact absurd ((begins_iff _ _).1 h) (by decide)
      | exact absurd ((begins_iff _ _).2 (by decide)) h
      | (simp only [List.map_cons, List.map_nil, lateNum]; decide +kernel)
  · intro col hcol hb v hv
    simp only [cleanTable, List.mem_cons, List.not_mem_nil, or_false] at hcol
    rcases hcol with rfl | rfl | rfl | rfl | rfl
    · exact absurd ((begins_iff _ _).1 hb) (by decide)
    · exact absurd ((begins_iff _ _).1 hb) (by decide)
    · exact absurd ((begins_iff _ _).1 hb) (by decide)
    · simp only [List.mem_cons, List.not_mem_nil, or_false] at hv
      rcases hv with rfl | rfl | rfl | rfl | rfl | rfl <;> decide +kernel
    · simp only [List.mem_cons, List.not_mem_nil, or_false] at hv
      rcases hv with rfl | rfl | rfl | rfl | rfl | rfl <;> decide +kernel

-- The performances and the threshold 2 moved by 100: the hypotheses of `C211_zero` hold, and both runs complete.
example :
    CompleteTrace (evenEnv ⟨true, true, .fin 2, .fin (1/2), false, true⟩) evenLate (exTrace false) ∧
    TrainedOnVerdicts evenLate ∧
    Rescaled id lateNum (fun v => v + .fin 100) (cleanTable [4, 1, 5, 3, 3, 4] [2, 0, 1, 1, 2, 1])
      (cleanTable [104, 101, 105, 103, 103, 104] [102, 100, 101, 101, 102, 101]) ∧
    raisedIn (cleanRun (evenEnv ⟨true, true, .fin 2, .fin (1/2), false, true⟩)
      (cleanTable [4, 1, 5, 3, 3, 4] [2, 0, 1, 1, 2, 1])) = 0 ∧
    raisedIn (cleanRun (evenEnv ⟨true, true, .fin 2 + .fin 100, .fin (1/2), false, true⟩)
      (cleanTable [104, 101, 105, 103, 103, 104] [102, 100, 101, 101, 102, 101])) = 0 := by
  refine ⟨even_complete _, even_blind, ⟨rfl, ?_⟩, by decide +kernel, by decide +kernel⟩
  unfold cleanTable
  refine .cons ?_ (.cons ?_ (.cons ?_ (.cons ?_ (.cons ?_ .nil)))) <;>
    refine ⟨rfl, fun h => ?_, fun h => ?_⟩
  all_goals
    first
    | rfl
    | exact absurd ((begins_iff _ _).1 h) (by decide)
    | exact absurd ((begins_iff _ _).2 (by decide)) h
    | (simp only [List.map_cons, List.map_nil, lateNum]; decide +kernel)

end Verif.EndToEnd
