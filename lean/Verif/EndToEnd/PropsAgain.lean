import Verif.EndToEnd.AgainLemmas
import Verif.EndToEnd.PropsPart
/-!
# C228: building again on the features that were selected
-/
set_option autoImplicit false
set_option linter.unusedSectionVars false

namespace Verif.EndToEnd

open Verif (Num)
open Verif.Pipeline (Stg Name runner defaultStages buildDefault inputs outputs)
open Verif.Metadata (Meta)
open Verif.Runner (Dict Op exec runAll contents RunError)

variable {V W : Type}

private theorem again_schedule {order : List Stg} {π : Builder.SetOrder Stg} {sched : List (List Stg)}
    (horder : order.Perm defaultStages) (hs : buildDefault order π = .ok sched) :
    ∃ rest, sched.flatten = .preprocessing :: .prelim :: .sifted :: rest ∧
      ∀ s ∈ rest, s = Stg.pilot ∨ s = .pythia ∨ s = .cloister ∨ s = .trace := by
  rcases Pipeline.C10_default_schedule order horder π with h | h <;>
    · rw [hs] at h
      obtain rfl := Except.ok.inj h
      exact ⟨_, rfl, by decide⟩

/-- **C228 (part), when the second build keeps its features.** If the features are named differently, no value is
missing and the density option is off, a second build that asks for the features `sel` that the first one selected,
and selects as many, gives the same output in every name but those about the features that were dropped: the raw
features, the quantities of each feature and the grounds of the selection. Missing: that the second build selects
as many, which is false (`C228_refuted`). -/
theorem C228_kept_partial {num : V → Num} {env : Env V W} {m : Meta V} {l : List V} {s : Option (List V)}
    (hm : Fitting l s m) (full : NothingMissing num m) (distinct : m.featureNames.Nodup)
    (sparse : env.subset.byDensity = false)
    (tuples : ∀ k s vs out, env.rest k s vs = .ok out → out.map Prod.fst = (outputs s).map Prod.fst)
    {order : List Stg} {π : Builder.SetOrder Stg} {sched : List (List Stg)}
    (horder : order.Perm defaultStages) (hs : buildDefault order π = .ok sched)
    (ops ops' : List (Op Stg Name (Val V W))) {sel sel' : List String}
    (calls : (exec (runner order sched (run (keepingOnly sel env))) ops').st.calls.length =
      (exec (runner order sched (run env)) ops).st.calls.length) {d d' : Dict Name (Val V W)}
    (h : contents (runAll (runner order sched (run env)) (exec (runner order sched (run env)) ops).st
      (args env num m)) = .ok d)
    (selected : d .feat_labels = some (.names sel)) (some_selected : sel ≠ [])
    (h' : contents (runAll (runner order sched (run (keepingOnly sel env)))
      (exec (runner order sched (run (keepingOnly sel env))) ops').st (args (keepingOnly sel env) num m)) = .ok d')
    (selected' : d' .feat_labels = some (.names sel')) (as_many : sel'.length = sel.length) :
    ∀ n, n ∉ ofAllFeatures → d' n = d n := by
  rw [contents_apply horder hs] at h h'
  rw [calls] at h'
  obtain ⟨rest, e, hrest⟩ := again_schedule horder hs
  rw [e] at h h'
  exact run_again hm full distinct sparse tuples hrest h selected some_selected h' selected' (.inr as_many)

/-- **C228 (part), few features.** If the first build selects at most three features, the second build gives the same
output with no condition on what it selects. -/
theorem C228_few_partial {num : V → Num} {env : Env V W} {m : Meta V} {l : List V} {s : Option (List V)}
    (hm : Fitting l s m) (full : NothingMissing num m) (distinct : m.featureNames.Nodup)
    (sparse : env.subset.byDensity = false)
    (tuples : ∀ k s vs out, env.rest k s vs = .ok out → out.map Prod.fst = (outputs s).map Prod.fst)
    {order : List Stg} {π : Builder.SetOrder Stg} {sched : List (List Stg)}
    (horder : order.Perm defaultStages) (hs : buildDefault order π = .ok sched)
    (ops ops' : List (Op Stg Name (Val V W))) {sel : List String}
    (calls : (exec (runner order sched (run (keepingOnly sel env))) ops').st.calls.length =
      (exec (runner order sched (run env)) ops).st.calls.length) {d d' : Dict Name (Val V W)}
    (h : contents (runAll (runner order sched (run env)) (exec (runner order sched (run env)) ops).st
      (args env num m)) = .ok d)
    (selected : d .feat_labels = some (.names sel)) (some_selected : sel ≠ []) (few : sel.length ≤ 3)
    (h' : contents (runAll (runner order sched (run (keepingOnly sel env)))
      (exec (runner order sched (run (keepingOnly sel env))) ops').st (args (keepingOnly sel env) num m)) = .ok d') :
    ∀ n, n ∉ ofAllFeatures → d' n = d n := by
  rw [contents_apply horder hs] at h h'
  rw [calls] at h'
  obtain ⟨rest, e, hrest⟩ := again_schedule horder hs
  rw [e] at h h'
  obtain ⟨sel', selected'⟩ : ∃ sel', d' .feat_labels = some (.names sel') := by
    obtain ⟨o, outs, ys, a, dense, c, q, -, -, -, -, -, -, hlast⟩ := front hm h'
    refine ⟨q.featLabels, (rest_keeps (env := keepingOnly sel env) tuples (fun s hs => ⟨hrest s hs, ?_⟩) hlast).trans
      rfl⟩
    rcases hrest s hs with rfl | rfl | rfl | rfl <;> decide
  exact run_again hm full distinct sparse tuples hrest h selected some_selected h' selected' (.inl few)

/-- The full claim, for the features that the second build selects. -/
def SelectionStable (V W : Type) : Prop :=
  ∀ (num : V → Num) (env : Env V W) (m : Meta V) (l : List V) (s : Option (List V)) (sel : List String)
    (d d' : Dict Name (Val V W)),
    Fitting l s m → NothingMissing num m → m.featureNames.Nodup → env.subset.byDensity = false →
    (∀ k s vs out, env.rest k s vs = .ok out → out.map Prod.fst = (outputs s).map Prod.fst) →
    contents (runAll (runner defaultStages Pipeline.defaultSchedule (run env)) Runner.State.init
      (args env num m)) = .ok d →
    d .feat_labels = some (.names sel) →
    contents (runAll (runner defaultStages Pipeline.defaultSchedule (run (keepingOnly sel env))) Runner.State.init
      (args (keepingOnly sel env) num m)) = .ok d' →
    d' .feat_labels = d .feat_labels

/-! ### Cases -/

/-- Six instances with four features. -/
def fourMeta : Meta Nat where
  featureNames := ["feature_a", "feature_b", "feature_c", "feature_d"]
  algorithmNames := ["algo_p", "algo_q"]
  labels := .series [10, 11, 12, 13, 14, 15]
  sources := none
  features := [[1, 11, 21, 33], [2, 15, 25, 32], [3, 12, 22, 31], [1, 14, 24, 31], [2, 11, 23, 33], [5, 13, 23, 32]]
  algorithms := [[4, 2], [1, 0], [5, 1], [3, 1], [3, 2], [4, 1]]

theorem four_fitting : Fitting [10, 11, 12, 13, 14, 15] none fourMeta where
  labels := rfl
  sources := rfl
  features := by decide
  algorithms := by decide
  rows := rfl
  labelled := rfl
  sourced := by rintro _ ⟨⟩

/-- The features that a run selected. -/
def selectedIn {U : Type} (r : Except (RunError Name Err) (Dict Name (Val Nat U))) : Option (List String) :=
  match r with
  | .ok d =>
    match d .feat_labels with
    | some (.names l) => some l
    | _ => none
  | _ => none

-- The hypotheses of `C228_few_partial` hold of the wide options: the third of four features is dropped, the second
-- build keeps the other three, and all stages complete in both.
example : Fitting [10, 11, 12, 13, 14, 15] none fourMeta ∧ NothingMissing lateNum fourMeta ∧
    fourMeta.featureNames.Nodup ∧ wideEnv.subset.byDensity = false ∧
    (∀ k s vs out, wideEnv.rest k s vs = .ok out → out.map Prod.fst = (outputs s).map Prod.fst) ∧
    selectedIn (contents (runAll (runner defaultStages Pipeline.defaultSchedule (run wideEnv)) Runner.State.init
      (args wideEnv lateNum fourMeta))) = some ["feature_a", "feature_b", "feature_d"] ∧
    selectedIn (contents (runAll (runner defaultStages Pipeline.defaultSchedule
      (run (keepingOnly ["feature_a", "feature_b", "feature_d"] wideEnv))) Runner.State.init
      (args (keepingOnly ["feature_a", "feature_b", "feature_d"] wideEnv) lateNum fourMeta))) =
      some ["feature_a", "feature_b", "feature_d"] :=
  ⟨four_fitting, (by constructor <;> intro r _ v _ h <;> cases h), by decide, rfl, wide_complete.complete.tuples,
    by decide +kernel, by decide +kernel⟩

/-- Five features, the first values of which tell them apart. -/
def fiveMeta : Meta Nat where
  featureNames := ["feature_a", "feature_b", "feature_c", "feature_d", "feature_e"]
  algorithmNames := ["algo_p", "algo_q"]
  labels := .series [10, 11, 12]
  sources := none
  features := [[1, 11, 21, 31, 41], [2, 15, 25, 32, 42], [3, 12, 22, 33, 44]]
  algorithms := [[4, 2], [1, 0], [5, 1]]

theorem five_fitting : Fitting [10, 11, 12] none fiveMeta where
  labels := rfl
  sources := rfl
  features := by decide
  algorithms := by decide
  rows := rfl
  labelled := rfl
  sourced := by rintro _ ⟨⟩

/-- The correlations of the five features with both algorithms, and room for four clusters. -/
def fiveEnv : Env Nat Unit :=
  { smallEnv noSubset none with
    thr := .fin (1 / 2)
    clusters := 4
    lib := fun _ _ _ => { (smallEnv noSubset none).lib ⟨0, []⟩ ⟨0, []⟩ [] with argsort := Sifted.argsortRef }
    pearson := fun l => (.fin (match l.head? with
      | some (.fin 1, _) => 9 / 10
      | some (.fin 11, _) => 8 / 10
      | some (.fin 21, _) => 1 / 10
      | some (.fin 31, _) => 7 / 10
      | _ => 6 / 10), 0) }

/-- The same features if none is dropped the second time: all five are well correlated. -/
def keenFive : Env Nat Unit := { fiveEnv with pearson := fun _ => (.fin (7 / 10), 0), clusters := 5 }

theorem five_tuples : ∀ k s vs out, fiveEnv.rest k s vs = .ok out → out.map Prod.fst = (outputs s).map Prod.fst := by
  intro k s vs out h
  cases h
  rw [List.map_map]
  rfl

-- The hypotheses of `C228_kept_partial` hold with more than three features.
example : Fitting [10, 11, 12] none fiveMeta ∧ NothingMissing lateNum fiveMeta ∧ fiveMeta.featureNames.Nodup ∧
    keenFive.subset.byDensity = false ∧
    (∀ k s vs out, keenFive.rest k s vs = .ok out → out.map Prod.fst = (outputs s).map Prod.fst) ∧
    selectedIn (contents (runAll (runner defaultStages Pipeline.defaultSchedule (run keenFive)) Runner.State.init
      (args keenFive lateNum fiveMeta))) = some fiveMeta.featureNames ∧
    selectedIn (contents (runAll (runner defaultStages Pipeline.defaultSchedule
      (run (keepingOnly fiveMeta.featureNames keenFive))) Runner.State.init
      (args (keepingOnly fiveMeta.featureNames keenFive) lateNum fiveMeta))) = some fiveMeta.featureNames :=
  ⟨five_fitting, (by constructor <;> intro r _ v _ h <;> cases h), by decide, rfl, five_tuples, by decide +kernel,
    by decide +kernel⟩

/-- **C228, refuted in full.** SIFTED compares the correlation of the feature in position `i` when it decides on the
feature of rank `i` (`C70_refuted`), so what it selects depends on the features that it drops. Four of the five
features are selected, and a second build on these four drops one of them. -/
theorem C228_refuted : ¬ SelectionStable Nat Unit := by
  intro hall
  have h1 : selectedIn (contents (runAll (runner defaultStages Pipeline.defaultSchedule (run fiveEnv))
      Runner.State.init (args fiveEnv lateNum fiveMeta))) =
      some ["feature_a", "feature_b", "feature_c", "feature_e"] := by decide +kernel
  have h2 : selectedIn (contents (runAll (runner defaultStages Pipeline.defaultSchedule
      (run (keepingOnly ["feature_a", "feature_b", "feature_c", "feature_e"] fiveEnv))) Runner.State.init
      (args (keepingOnly ["feature_a", "feature_b", "feature_c", "feature_e"] fiveEnv) lateNum fiveMeta))) =
      some ["feature_a", "feature_b", "feature_c"] := by decide +kernel
  cases e1 : contents (runAll (runner defaultStages Pipeline.defaultSchedule (run fiveEnv))
      Runner.State.init (args fiveEnv lateNum fiveMeta)) with
  | error e => rw [e1] at h1; cases h1
  | ok d =>
    cases e2 : contents (runAll (runner defaultStages Pipeline.defaultSchedule
      (run (keepingOnly ["feature_a", "feature_b", "feature_c", "feature_e"] fiveEnv))) Runner.State.init
      (args (keepingOnly ["feature_a", "feature_b", "feature_c", "feature_e"] fiveEnv) lateNum fiveMeta)) with
    | error e => rw [e2] at h2; cases h2
    | ok d' =>
      rw [e1] at h1
      rw [e2] at h2
      have hsel : d .feat_labels = some (.names ["feature_a", "feature_b", "feature_c", "feature_e"]) := by
        unfold selectedIn at h1
        dsimp only at h1
        split at h1
        · rename_i l hl
          rw [hl, Option.some.inj h1]
        · cases h1
      have := hall lateNum fiveEnv fiveMeta _ none _ d d' five_fitting
        (by constructor <;> intro r _ v _ h <;> cases h) (by decide) rfl five_tuples e1 hsel e2
      unfold selectedIn at h2
      dsimp only at h2
      rw [this, hsel] at h2
      revert h2
      decide

end Verif.EndToEnd
