import Verif.EndToEnd.LabelLemmas
import Verif.EndToEnd.PropsCompletes
/-!
# C193: labels, sources and other columns do not influence the results
-/
set_option autoImplicit false
set_option linter.unusedSectionVars false

namespace Verif.EndToEnd

open Verif (Num)
open Verif.Pipeline (Stg Name runner defaultStages buildDefault)
open Verif.Metadata (Table Squeezed Begins fromDataFrame)
open Verif.Runner (Dict Op exec runAll contents RunError)

variable {V G : Type}

/-- **C193.** On two tables with the same features and performances, `run_all` (the same stages, the same
earlier calls) raises the same exception, or gives the same output except that labels and sources are those of
the same rows of their own table. -/
theorem C193_labels {lower : String → String} {numeric : Squeezed V → Bool} {str : V → V} {num : V → Num}
    {env : Env V (Kept G)} {le : Nat → Late V (Kept G)} {te : Nat → TraceEnv G}
    {t t' : Table V} {labels labels' : List V} {sources sources' : Option (List V)}
    (hc : CompleteTrace env le te) (ht : Twins lower num t t' labels labels' sources sources')
    {order : List Stg} {π : Builder.SetOrder Stg} {sched : List (List Stg)}
    (horder : order.Perm defaultStages) (hs : buildDefault order π = .ok sched)
    (ops : List (Op Stg Name (Val V (Kept G)))) :
    AlikeOutcomes (if numeric (.series labels) then labels.map str else labels)
      (if numeric (.series labels') then labels'.map str else labels') sources sources'
      (contents (runAll (runner order sched (run env)) (exec (runner order sched (run env)) ops).st
        (args env num (fromDataFrame lower numeric str t))))
      (contents (runAll (runner order sched (run env)) (exec (runner order sched (run env)) ops).st
        (args env num (fromDataFrame lower numeric str t')))) := by
  obtain ⟨n, cols⟩ := t
  obtain ⟨n', cols'⟩ := t'
  obtain rfl : n = n' := ht.rows
  rw [contents_apply horder hs, contents_apply horder hs]
  generalize (exec (runner order sched (run env)) ops).st.calls.length = k
  have cells : ∀ {cs : List (String × List V)} {q : String × List V → Bool} {name : String} {l : List V},
      Table.Rect (⟨n, cs⟩ : Table V) → cs.filter q = [(name, l)] → l.length = n := by
    intro cs q name l hr h
    have : (name, l) ∈ cs.filter q := by rw [h]; simp
    exact hr _ (List.mem_filter.1 this).1
  have conv : ∀ l : List V, l.length = n →
      (if numeric (.series l) then l.map str else l).length = n := by
    intro l hl; split <;> simp [hl]
  obtain ⟨f, hf⟩ := map_finRange (conv labels (ht.labelled.elim fun _ h => cells ht.rect h))
  obtain ⟨f', hf'⟩ := map_finRange (conv labels' (ht.labelled'.elim fun _ h => cells ht.rect' h))
  obtain ⟨g, g', cg, cg', eg, eg', hg⟩ : ∃ g g' : Option (List (Fin n)) → Option (List V),
      Carries g ∧ Carries g' ∧ g (some (List.finRange n)) = sources ∧
      g' (some (List.finRange n)) = sources' ∧
      ((∃ h h', sources = some ((List.finRange n).map h) ∧ sources' = some ((List.finRange n).map h') ∧
        g = (fun s => s.map (·.map h)) ∧ g' = fun s => s.map (·.map h')) ∨
      (g = fun _ => none) ∧ g' = fun _ => none) := by
    have h1 := ht.sourced
    have h2 := ht.sourced'
    have h3 := ht.both
    cases sources with
    | none =>
      cases sources' with
      | none => exact ⟨_, _, carries_none, carries_none, rfl, rfl, .inr ⟨rfl, rfl⟩⟩
      | some s' => simp at h3
    | some s =>
      cases sources' with
      | none => simp at h3
      | some s' =>
        obtain ⟨_, h1⟩ := h1
        obtain ⟨_, h2⟩ := h2
        obtain ⟨h, hh⟩ := map_finRange (cells ht.rect h1)
        obtain ⟨h', hh'⟩ := map_finRange (cells ht.rect' h2)
        refine ⟨_, _, carries_map h, carries_map h', ?_, ?_, .inl ⟨h, h', ?_, ?_, rfl, rfl⟩⟩ <;>
          simp only [Option.map_some, hh, hh']
  rw [args_base (t := ⟨n, cols⟩) (env := env) (num := num) ht.several ht.labelled ht.sourced rfl hf eg,
    args_base (t := ⟨n, cols'⟩) (env := env) (num := num) ht.several ht.labelled' ht.sourced' rfl hf' eg',
    ← ht.features, ← ht.algorithms, applyAll_relabel f g cg hc, applyAll_relabel f' g' cg' hc]
  cases Runner.applyAll ⟨sched, fun s => (Pipeline.inputs s).map Prod.fst, run (env.retype le te)⟩ k
      sched.flatten (baseArgs n (numbersOf lower num "feature_" ⟨n, cols⟩)
        (numbersOf lower num "algo_" ⟨n, cols⟩) env.fill) with
  | error e => exact rfl
  | ok d =>
    intro m
    cases hm : d m with
    | none => exact .inl ⟨by simp [relabelDict, hm], by simp [relabelDict, hm]⟩
    | some v =>
      refine .inr ⟨v.relabel f g, v.relabel f' g', by simp [relabelDict, hm], by simp [relabelDict, hm], ?_⟩
      rw [← hf, ← hf']
      exact alike_relabel hg v

theorem samePlaces_self {L l l' : List V} (h : SamePlaces L L l l') : l = l' := by
  obtain ⟨idx, h1, h2⟩ := h
  exact List.map_injective_iff.2 (Option.some_injective V) (h1.trans h2.symm)

theorem alike_self {W : Type} {L : List V} {S : Option (List V)} {v v' : Val V W}
    (h : Alike L L S S v v') : v = v' := by
  unfold Alike at h
  split at h
  · rw [samePlaces_self h]
  · rfl
  · obtain ⟨o, o', rfl, h2, h⟩ := h
    cases h2
    rw [samePlaces_self h]
  · exact h

/-- **C193.** Columns of other kinds, the names of the columns of labels and sources, and the places of
features, performances, labels and sources among each other do not matter: the outcome is the same. -/
theorem C193_other_columns {lower : String → String} {numeric : Squeezed V → Bool} {str : V → V} {num : V → Num}
    {env : Env V (Kept G)} {le : Nat → Late V (Kept G)} {te : Nat → TraceEnv G}
    {t t' : Table V} {labels : List V} {sources : Option (List V)}
    (hc : CompleteTrace env le te) (ht : Twins lower num t t' labels labels sources sources)
    {order : List Stg} {π : Builder.SetOrder Stg} {sched : List (List Stg)}
    (horder : order.Perm defaultStages) (hs : buildDefault order π = .ok sched)
    (ops : List (Op Stg Name (Val V (Kept G)))) :
    contents (runAll (runner order sched (run env)) (exec (runner order sched (run env)) ops).st
        (args env num (fromDataFrame lower numeric str t))) =
      contents (runAll (runner order sched (run env)) (exec (runner order sched (run env)) ops).st
        (args env num (fromDataFrame lower numeric str t'))) := by
  have := C193_labels (numeric := numeric) (str := str) hc ht horder hs ops
  generalize contents (runAll (runner order sched (run env)) (exec (runner order sched (run env)) ops).st
    (args env num (fromDataFrame lower numeric str t))) = r at *
  generalize contents (runAll (runner order sched (run env)) (exec (runner order sched (run env)) ops).st
    (args env num (fromDataFrame lower numeric str t'))) = r' at *
  cases r with
  | error e =>
    cases r' with
    | error e' => exact congrArg _ this
    | ok d' => exact this.elim
  | ok d =>
    cases r' with
    | error e' => exact this.elim
    | ok d' =>
      refine congrArg _ (funext fun n => ?_)
      rcases this n with ⟨h1, h2⟩ | ⟨v, v', h1, h2, h⟩
      · rw [h1, h2]
      · rw [h1, h2, alike_self h]

/-- The table of the example with other labels, a column of comments and another order of the columns. -/
def twinTable : Table Nat :=
  ⟨6, [("algo_p", [4, 1, 5, 3, 3, 4]), ("comment", [7, 7, 7, 7, 7, 7]), ("feature_a", [1, 2, 3, 1, 2, 5]),
    ("algo_q", [2, 0, 1, 1, 2, 1]), ("feature_b", [1, 5, 2, 4, 1, 3]),
    ("instances", [30, 31, 32, 33, 34, 35])]⟩

example :
    CompleteTrace (allEnv false) (allLate false) (exTrace false) ∧
    Twins id lateNum (cleanTable [4, 1, 5, 3, 3, 4] [2, 0, 1, 1, 2, 1]) twinTable
      [10, 11, 12, 13, 14, 15] [30, 31, 32, 33, 34, 35] none none ∧
    raisedIn (cleanRun (allEnv false) (cleanTable [4, 1, 5, 3, 3, 4] [2, 0, 1, 1, 2, 1])) = 0 ∧
    defaultStages.Perm defaultStages ∧
    buildDefault defaultStages Pipeline.listOrder = .ok Pipeline.defaultSchedule := by
  refine ⟨all_complete false, ⟨rfl, by decide, cleanTable_rect rfl rfl, ?_, ?_, ?_, ⟨_, rfl⟩, ⟨_, rfl⟩,
    rfl, rfl, rfl⟩, by decide +kernel, .refl _, Pipeline.default_once⟩
  · intro c hc
    simp only [twinTable, List.mem_cons, List.not_mem_nil, or_false] at hc
    rcases hc with rfl | rfl | rfl | rfl | rfl | rfl <;> rfl
  · simp only [numbersOf, begins_iff]
    rfl
  · simp only [numbersOf, begins_iff]
    rfl

end Verif.EndToEnd
