import Verif.EndToEnd.AbsentLemmas
import Verif.EndToEnd.PropsShift
/-!
# C198, C199 for the whole pipeline
-/
set_option autoImplicit false
set_option linter.unusedSectionVars false

namespace Verif.EndToEnd

open Verif (Num)
open Verif.Pipeline (Stg Name runner defaultStages buildDefault)
open Verif.Metadata (Meta)
open Verif.Preprocessing (pick HasValue)
open Verif.Runner (Dict Op exec runAll contents RunError)

variable {V W : Type}

theorem begins_preprocessing {order : List Stg} {π : Builder.SetOrder Stg} {sched : List (List Stg)}
    (horder : order.Perm defaultStages) (hs : buildDefault order π = .ok sched) :
    ∃ rest, sched.flatten = .preprocessing :: rest ∧ ∀ s ∈ rest, s ≠ Stg.preprocessing := by
  rcases Pipeline.C10_default_schedule order horder π with h | h <;>
    · rw [hs] at h
      obtain rfl := Except.ok.inj h
      exact ⟨_, rfl, by decide⟩

/-- **C198.** Instances that preprocessing removes can be left out of the metadata: `run_all` (the same stages,
the same earlier calls) raises the same exception or gives the same output, except for the initial inputs
themselves. `σ` lists the positions of the instances that stay, in increasing order. -/
theorem C198_run {num : V → Num} {env : Env V W} {m : Meta V} {l : List V} {s : Option (List V)}
    (hm : Fitting l s m) {σ : List Nat} (increasing : σ.Pairwise (· < ·))
    (below : ∀ i ∈ σ, i < m.features.length)
    (removed : ∀ i, i < m.features.length → i ∉ σ →
      Preprocessing.Removes Num.isNan (received num l s m) m.algorithmNames env.feats env.algos i)
    {order : List Stg} {π : Builder.SetOrder Stg} {sched : List (List Stg)}
    (horder : order.Perm defaultStages) (hs : buildDefault order π = .ok sched)
    (ops : List (Op Stg Name (Val V W))) :
    SameExcept [.features, .algorithms, .instance_labels, .instance_sources]
      (contents (runAll (runner order sched (run env)) (exec (runner order sched (run env)) ops).st
        (args env num (instancesOnly σ l s m))))
      (contents (runAll (runner order sched (run env)) (exec (runner order sched (run env)) ops).st
        (args env num m))) := by
  rw [contents_apply horder hs, contents_apply horder hs]
  generalize (exec (runner order sched (run env)) ops).st.calls.length = k
  obtain ⟨rest, e, hrest⟩ := begins_preprocessing horder hs
  rw [e]
  refine from_preprocessing env _ (by decide) sched rest hrest k _ _ ?_ ?_ ?_
  · intro n hn
    simp only [List.mem_cons, List.not_mem_nil, or_false, not_or] at hn
    unfold args instancesOnly
    cases n <;> first | rfl | (exfalso; simp at hn; done)
  · intro n hn
    simp only [List.mem_cons, List.not_mem_nil, or_false] at hn
    rcases hn with rfl | rfl | rfl | rfl <;> exact ⟨rfl, rfl⟩
  · intro vs vs' h h'
    obtain ⟨o, rfl⟩ := args_inputs (l := pick l σ) (s := s.map fun s => pick s σ) rfl
      (by simp only [instancesOnly, Option.map_map]; rfl) h
    obtain ⟨o', rfl⟩ := args_inputs hm.labels hm.sources h'
    rw [runPreprocessing_received, runPreprocessing_received]
    have e1 : received num (pick l σ) (s.map fun s => pick s σ) (instancesOnly σ l s m) =
        (received num l s m).inOrder σ := by
      simp only [received, Preprocessing.Data.inOrder, instancesOnly, Preprocessing.pick_map]
    have e2 := Preprocessing.C198_stage Num.isNan (received num l s m) m.algorithmNames env.feats env.algos
      (received_fits hm) rfl σ increasing (by simpa [received] using below) (by simpa [received] using removed)
    rw [← e2, e1]
    rfl

/-- 99 stands for a missing value. -/
def gapNum (v : Nat) : Num := if v = 99 then .nan else .fin v

/-- The metadata of the example with a third instance that has no feature value, and a third feature that only
one instance has. -/
def gapMeta : Meta Nat where
  featureNames := ["feature_a", "feature_b", "feature_c"]
  algorithmNames := ["algo_p", "algo_q"]
  labels := .series [10, 11, 16, 12, 13, 14, 15]
  sources := none
  features := [[1, 1, 99], [2, 5, 99], [99, 99, 99], [3, 2, 7], [1, 4, 99], [2, 1, 99], [5, 3, 99]]
  algorithms := [[4, 2], [1, 0], [6, 6], [5, 1], [3, 1], [3, 2], [4, 1]]

theorem gap_fitting : Fitting [10, 11, 16, 12, 13, 14, 15] none gapMeta where
  labels := rfl
  sources := rfl
  features := by decide
  algorithms := by decide
  rows := rfl
  labelled := rfl
  sourced := by rintro _ ⟨⟩

example :
    Fitting [10, 11, 16, 12, 13, 14, 15] none gapMeta ∧
    (∀ i, i < gapMeta.features.length → i ∉ [0, 1, 3, 4, 5, 6] →
      Preprocessing.Removes Num.isNan (received gapNum [10, 11, 16, 12, 13, 14, 15] none gapMeta)
        gapMeta.algorithmNames (allEnv false).feats (allEnv false).algos i) ∧
    raisedIn (contents (runAll (runner defaultStages Pipeline.defaultSchedule (run (allEnv false)))
      Runner.State.init (args (allEnv false) gapNum gapMeta))) = 0 := by
  refine ⟨gap_fitting, ?_, by decide +kernel⟩
  intro i _ hne out ho
  have : (Preprocessing.run Num.isNan (received gapNum [10, 11, 16, 12, 13, 14, 15] none gapMeta).numbered
      gapMeta.algorithmNames (allEnv false).feats (allEnv false).algos).toOption.map (fun o => o.data.inst) =
      some [0, 1, 3, 4, 5, 6] := by decide +kernel
  rw [ho] at this
  have e : out.data.inst = [0, 1, 3, 4, 5, 6] := Option.some.inj this
  rw [e]
  exact hne

/-- **C199 (part).** Features that preprocessing does not return (they were not selected or miss too many
values) can be left out of the metadata: `run_all` raises the same exception or gives the same output, except
for the initial inputs themselves, when preprocessing returns some feature and every instance it returns has a
value in one of the features it returns. `ks` lists the positions of the features that stay, in increasing
order. Missing: an instance whose only values are in a removed feature (`C199_refuted`). -/
theorem C199_run_partial {num : V → Num} {env : Env V W} {m : Meta V} {l : List V} {s : Option (List V)}
    (hm : Fitting l s m) (hf : m.featureNames.Nodup) (ha : m.algorithmNames.Nodup)
    {ks : List Nat} (increasing : ks.Pairwise (· < ·))
    (below : ∀ j ∈ ks, j < m.featureNames.length) {out : Preprocessing.Output Num String V V}
    (h : Preprocessing.run Num.isNan (received num l s m) m.algorithmNames env.feats env.algos = .ok out)
    (absent : ∀ (j : Nat) f, m.featureNames[j]? = some f → j ∉ ks → f ∉ out.data.feat)
    (some_left : out.data.feat ≠ [])
    (values : ∀ i, i < out.data.x.rows.length → HasValue Num.isNan out.data.x i)
    {order : List Stg} {π : Builder.SetOrder Stg} {sched : List (List Stg)}
    (horder : order.Perm defaultStages) (hs : buildDefault order π = .ok sched)
    (ops : List (Op Stg Name (Val V W))) :
    SameExcept [.features, .feature_names]
      (contents (runAll (runner order sched (run env)) (exec (runner order sched (run env)) ops).st
        (args env num (featuresOnly ks m))))
      (contents (runAll (runner order sched (run env)) (exec (runner order sched (run env)) ops).st
        (args env num m))) := by
  rw [contents_apply horder hs, contents_apply horder hs]
  generalize (exec (runner order sched (run env)) ops).st.calls.length = k
  obtain ⟨rest, e, hrest⟩ := begins_preprocessing horder hs
  rw [e]
  refine from_preprocessing env _ (by decide) sched rest hrest k _ _ ?_ ?_ ?_
  · intro n hn
    simp only [List.mem_cons, List.not_mem_nil, or_false, not_or] at hn
    unfold args featuresOnly
    cases n <;> first | rfl | (exfalso; simp at hn; done)
  · intro n hn
    simp only [List.mem_cons, List.not_mem_nil, or_false] at hn
    rcases hn with rfl | rfl <;> exact ⟨rfl, rfl⟩
  · intro vs vs' h1 h2
    obtain ⟨o, rfl⟩ := args_inputs (m := featuresOnly ks m) (l := l) (s := s) hm.labels hm.sources h1
    obtain ⟨o', rfl⟩ := args_inputs hm.labels hm.sources h2
    rw [runPreprocessing_received, runPreprocessing_received]
    have e1 : received num l s (featuresOnly ks m) = (received num l s m).features ks := by
      simp only [received, Preprocessing.Data.features, featuresOnly, List.map_map]
      rw [Preprocessing.pick_length _ _ below]
      congr 2
      apply List.map_congr_left
      intro r _
      simp only [Function.comp, Preprocessing.pick_map]
    have e2 := Preprocessing.C199_partial Num.isNan (received num l s m) m.algorithmNames env.feats env.algos
      out ks (received_fits hm) rfl hf ha increasing below h absent some_left values
    rw [h, e1]
    exact congrArg (fun r : Except Preprocessing.Err (Preprocessing.Output Num String V V) =>
      match r with
      | .error e => (.error (.preprocessing e) : Except Err (List (Name × Val V W)))
      | .ok o => .ok [(.inst_labels, .labels o.data.inst), (.feat_labels, .names o.data.feat),
        (.algo_labels, .names o.algo), (.x, .table o.data.x), (.y, .table o.data.y),
        (.s, .sources o.data.s), (.x_raw, .table o.data.x), (.y_raw, .table o.data.y)]) e2

example : ∃ out, Preprocessing.run Num.isNan (received gapNum [10, 11, 16, 12, 13, 14, 15] none gapMeta)
      gapMeta.algorithmNames (allEnv false).feats (allEnv false).algos = .ok out ∧
    Fitting [10, 11, 16, 12, 13, 14, 15] none gapMeta ∧ gapMeta.featureNames.Nodup ∧
    (∀ (j : Nat) f, gapMeta.featureNames[j]? = some f → j ∉ [0, 1] → f ∉ out.data.feat) ∧
    out.data.feat ≠ [] ∧ ∀ i, i < out.data.x.rows.length → HasValue Num.isNan out.data.x i := by
  have h : (Preprocessing.run Num.isNan (received gapNum [10, 11, 16, 12, 13, 14, 15] none gapMeta)
      gapMeta.algorithmNames (allEnv false).feats (allEnv false).algos).toOption.map
        (fun o => (o.data.feat, o.data.x.rows)) = some (["feature_a", "feature_b"],
          [[.fin 1, .fin 1], [.fin 2, .fin 5], [.fin 3, .fin 2], [.fin 1, .fin 4], [.fin 2, .fin 1],
            [.fin 5, .fin 3]]) := by decide +kernel
  cases ho : Preprocessing.run Num.isNan (received gapNum [10, 11, 16, 12, 13, 14, 15] none gapMeta)
      gapMeta.algorithmNames (allEnv false).feats (allEnv false).algos with
  | error e => rw [ho] at h; cases h
  | ok out =>
    rw [ho] at h
    have h1 : out.data.feat = ["feature_a", "feature_b"] := congrArg Prod.fst (Option.some.inj h)
    have h2 := congrArg Prod.snd (Option.some.inj h)
    dsimp only at h2
    refine ⟨out, rfl, gap_fitting, by decide, ?_, by rw [h1]; decide, ?_⟩
    · intro j f hj hne
      rw [h1]
      match j with
      | 0 => simp at hne
      | 1 => simp at hne
      | 2 => simp [gapMeta] at hj; subst hj; decide
      | _ + 3 => simp [gapMeta] at hj
    · intro i hi
      unfold HasValue
      rw [h2] at hi ⊢
      match i with
      | 0 => exact ⟨_, _, rfl, List.mem_cons_self, rfl⟩
      | 1 => exact ⟨_, _, rfl, List.mem_cons_self, rfl⟩
      | 2 => exact ⟨_, _, rfl, List.mem_cons_self, rfl⟩
      | 3 => exact ⟨_, _, rfl, List.mem_cons_self, rfl⟩
      | 4 => exact ⟨_, _, rfl, List.mem_cons_self, rfl⟩
      | 5 => exact ⟨_, _, rfl, List.mem_cons_self, rfl⟩
      | _ + 6 => simp at hi

end Verif.EndToEnd
