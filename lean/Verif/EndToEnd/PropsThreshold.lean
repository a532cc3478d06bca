import Verif.EndToEnd.ThresholdLemmas
import Verif.EndToEnd.PropsGrounds
/-!
# C224: the threshold that says what is good, and the picture
-/
set_option autoImplicit false
set_option linter.unusedSectionVars false

namespace Verif.EndToEnd

open Verif (Num)
open Verif.Pipeline (Stg Name runner defaultStages buildDefault outputs)
open Verif.Metadata (Table Squeezed fromDataFrame)
open Verif.Runner (Dict Op exec runAll contents RunError)

variable {V W : Type}

/-- The outputs agree in everything that is not about which algorithms are good: the tables, the best algorithm
of each instance, the selected features, the projection, the coordinates and the boundary. -/
def SamePicture (d d' : Dict Name (Val V W)) : Prop := ∀ n, n ∉ aboutGood → d' n = d n

/-- **C224 (part).** Two builds from the same table, whose options differ only in how good is good and how many
good algorithms make an instance easy, show the same picture if both complete and no genetic search was needed to
select the features.
Missing: with a search the statement is false (`C224_refuted`), and with the density option of the sampling the
verdicts decide which instances are kept. -/
theorem C224_partial {lower : String → String} {numeric : Squeezed V → Bool} {str : V → V} {num : V → Num}
    {env : Env V W} {le : Nat → Late V W} {t : Table V} {o' : Prelim.Opts}
    (complete : Complete env le) (same : SameButThresholds env.prelim o')
    (noDensity : env.subset.byDensity = false) (sees : OnlySearchSeesVerdicts env)
    {order : List Stg} {π : Builder.SetOrder Stg} {sched : List (List Stg)}
    (horder : order.Perm defaultStages) (hs : buildDefault order π = .ok sched)
    (ops ops' : List (Op Stg Name (Val V W)))
    (calls : (exec (runner order sched (run { env with prelim := o' })) ops').st.calls.length =
      (exec (runner order sched (run env)) ops).st.calls.length) {d d' : Dict Name (Val V W)}
    (h : contents (runAll (runner order sched (run env)) (exec (runner order sched (run env)) ops).st
      (args env num (fromDataFrame lower numeric str t))) = .ok d)
    (h' : contents (runAll (runner order sched (run { env with prelim := o' }))
      (exec (runner order sched (run { env with prelim := o' })) ops').st
      (args { env with prelim := o' } num (fromDataFrame lower numeric str t))) = .ok d')
    (few : ¬ Searched d) : SamePicture d d' := by
  rw [contents_apply horder hs] at h h'
  rw [calls] at h'
  revert h h'
  generalize (exec (runner order sched (run env)) ops).st.calls.length = k
  have main : ∃ rest, sched.flatten = .preprocessing :: .prelim :: .sifted :: rest ∧
      ∀ s ∈ rest, s = Stg.pilot ∨ s = .pythia ∨ s = .cloister ∨ s = .trace := by
    rcases Pipeline.C10_default_schedule order horder π with h | h <;>
      · rw [hs] at h
        obtain rfl := Except.ok.inj h
        exact ⟨_, rfl, by decide⟩
  obtain ⟨rest, e, hrest⟩ := main
  rw [e]
  have hall := applyAll_thresholds same noDensity sees complete.tuples sched rest hrest k
    (args env num (fromDataFrame lower numeric str t))
  intro h h'
  change Runner.applyAll _ k _ (args env num (fromDataFrame lower numeric str t)) = _ at h'
  rw [h, h'] at hall
  rcases hall with hall | hall
  · exact absurd hall few
  · intro n hn
    have := hall n
    revert this
    generalize d n = u
    generalize d' n = u'
    rintro (hv | _)
    · rw [hv hn]
    · rfl

/-! ### Cases -/

/-- Of four features, which of the first two stands for its cluster is decided by a classifier of the
verdicts. -/
def voteEnv (o : Prelim.Opts) : Env Nat (Kept (List (ℚ × ℚ))) :=
  { clusterEnv with
    prelim := o
    lib := fun _ _ yb => { clusterEnv.lib ⟨0, []⟩ ⟨0, []⟩ [] with
      err := fun fs _ => if (fs.contains 0) = decide (6 < yb.flatten.count true) then 1 else 0
      search := fun cost => match cost [0, 0, 0], cost [1, 0, 0] with
        | .ok (some a), .ok (some b) => .ok (if a ≤ b then [0, 0, 0] else [1, 0, 0])
        | _, _ => .error .indexError } }

/-- Options with the given threshold for an absolute performance. -/
def goodFrom (q : ℚ) : Prelim.Opts := ⟨true, true, .fin q, .fin (1/2), false, false⟩

/-- Six instances with four features; from 2 the algorithms are good on five and three instances, from 4 on three
and two. -/
def voteTable : Table Nat :=
  ⟨6, [("instances", [10, 11, 12, 13, 14, 15]), ("feature_a", [1, 2, 3, 1, 2, 5]),
    ("feature_b", [11, 15, 12, 14, 11, 13]), ("feature_c", [21, 25, 22, 24, 23, 23]),
    ("feature_d", [33, 32, 31, 31, 33, 32]), ("algo_p", [4, 1, 5, 3, 3, 4]), ("algo_q", [2, 0, 1, 1, 4, 5])]⟩

/-- The names of the features and the coordinates in an output. -/
def pictureOf {V W : Type} (d : Dict Name (Val V W)) : Option (List String × List (List Num)) :=
  match d .feat_labels, d .z with
  | some (.names l), some (.table z) => some (l, z.rows)
  | _, _ => none

theorem vote_complete (o : Prelim.Opts) : CompleteTrace (voteEnv o) (allLate false) (exTrace false) where
  stages _ _ _ := rfl
  trace _ := rfl
  laws _ := dots_laws
  order _ _ := List.reverse_perm _

theorem vote_sees (o : Prelim.Opts) : OnlySearchSeesVerdicts (voteEnv o) := fun _ _ _ _ => ⟨rfl, rfl, rfl, rfl⟩

theorem picture_ne {V W : Type} {d d' : Dict Name (Val V W)} (h : pictureOf d ≠ pictureOf d')
    (f : .feat_labels ∉ aboutGood) (z : .z ∉ aboutGood) : ¬ SamePicture d d' := by
  intro hp
  refine h ?_
  unfold pictureOf
  rw [hp _ f, hp _ z]

/-- **C224** is false when the features are selected by search: the genetic search prefers other features when other
performances count as good, and the coordinates of the instances change with the threshold. -/
theorem C224_refuted : ∃ (env : Env Nat (Kept (List (ℚ × ℚ)))) (o' : Prelim.Opts) (t : Table Nat)
    (d d' : Dict Name (Val Nat (Kept (List (ℚ × ℚ))))), Complete env (allLate false) ∧
    SameButThresholds env.prelim o' ∧ env.subset.byDensity = false ∧ OnlySearchSeesVerdicts env ∧
    cleanRun env t = .ok d ∧ cleanRun { env with prelim := o' } t = .ok d' ∧ ¬ SamePicture d d' := by
  obtain ⟨d, h1, -⟩ := cleanRun_succeeds (env := voteEnv (goodFrom 4)) (t := voteTable) (by decide +kernel)
  obtain ⟨d', h2, -⟩ := cleanRun_succeeds (env := voteEnv (goodFrom 2)) (t := voteTable) (by decide +kernel)
  refine ⟨voteEnv (goodFrom 4), goodFrom 2, voteTable, d, d', (vote_complete _).complete, ⟨rfl, rfl, rfl, rfl⟩, rfl,
    vote_sees _, h1, h2, picture_ne ?_ (by decide) (by decide)⟩
  have h : ((cleanRun (voteEnv (goodFrom 4)) voteTable).toOption.bind pictureOf).map Prod.snd ≠
      ((cleanRun (voteEnv (goodFrom 2)) voteTable).toOption.bind pictureOf).map Prod.snd := by decide +kernel
  rw [h1, h2] at h
  exact fun he => h (by
    change (pictureOf d).map Prod.snd = (pictureOf d').map Prod.snd
    rw [he])

/-- The names of the features and the verdicts in an output without clusters. -/
def unsearched {V W : Type} (d : Dict Name (Val V W)) : Option (List String × List (List Bool)) :=
  match d .clust, d .feat_labels, d .y_bin with
  | some (.other _), some (.names l), some (.verdicts b) => some (l, b)
  | _, _, _ => none

theorem unsearched_some {V W : Type} {d : Dict Name (Val V W)} {l : List String} {b : List (List Bool)}
    (h : unsearched d = some (l, b)) :
    ¬ Searched d ∧ d .feat_labels = some (.names l) ∧ d .y_bin = some (.verdicts b) := by
  unfold unsearched at h
  split at h
  · rename_i e1 e2 e3
    cases h
    exact ⟨fun ⟨c, hc⟩ => (by rw [hc] at e1; cases e1), e2, e3⟩
  · cases h

-- Four features of which three are kept without search, performances from 2 and from 4 on good: the hypotheses of
-- `C224_partial` hold, and both runs complete, with different verdicts.
example : ∃ d d', Complete { wideEnv with prelim := goodFrom 4 } (allLate false) ∧
    SameButThresholds (goodFrom 4) (goodFrom 2) ∧ wideEnv.subset.byDensity = false ∧
    OnlySearchSeesVerdicts { wideEnv with prelim := goodFrom 4 } ∧
    cleanRun { wideEnv with prelim := goodFrom 4 } voteTable = .ok d ∧
    cleanRun { wideEnv with prelim := goodFrom 2 } voteTable = .ok d' ∧ ¬ Searched d ∧
    d .feat_labels = some (.names ["feature_a", "feature_b", "feature_d"]) ∧
    d .y_bin = some (.verdicts [[true, false], [false, false], [true, false], [false, false], [false, true],
      [true, true]]) ∧
    d' .y_bin = some (.verdicts [[true, true], [false, false], [true, false], [true, false], [true, true],
      [true, true]]) := by
  obtain ⟨d, h1, -⟩ := cleanRun_succeeds (env := { wideEnv with prelim := goodFrom 4 }) (t := voteTable)
    (by decide +kernel)
  obtain ⟨d', h2, -⟩ := cleanRun_succeeds (env := { wideEnv with prelim := goodFrom 2 }) (t := voteTable)
    (by decide +kernel)
  have e1 : (cleanRun { wideEnv with prelim := goodFrom 4 } voteTable).toOption.bind unsearched =
      some (["feature_a", "feature_b", "feature_d"], [[true, false], [false, false], [true, false], [false, false],
        [false, true], [true, true]]) := by decide +kernel
  have e2 : (cleanRun { wideEnv with prelim := goodFrom 2 } voteTable).toOption.bind unsearched =
      some (["feature_a", "feature_b", "feature_d"], [[true, true], [false, false], [true, false], [true, false],
        [true, true], [true, true]]) := by decide +kernel
  rw [h1] at e1
  rw [h2] at e2
  obtain ⟨a1, a2, a3⟩ := unsearched_some (d := d) e1
  obtain ⟨-, -, b3⟩ := unsearched_some (d := d') e2
  exact ⟨d, d', ⟨wide_complete.complete.stages, wide_complete.complete.trace⟩, ⟨rfl, rfl, rfl, rfl⟩, rfl, fun _ _ _ _ => ⟨rfl, rfl, rfl, rfl⟩, h1,
    h2, a1, a2, a3, b3⟩

end Verif.EndToEnd
