import Verif.Sifted.PropsFewer
import Verif.EndToEnd.PropsAgain
/-!
# C234 for whole builds: a higher correlation threshold and the features in the Model
-/
set_option autoImplicit false
set_option linter.unusedSectionVars false

namespace Verif.EndToEnd

open Verif (Num)
open Verif.Preprocessing (Mat)
open Verif.Pipeline (Stg Name runner defaultStages buildDefault inputs outputs)
open Verif.Metadata (Meta)
open Verif.Runner (Dict Op exec runAll contents)

variable {V W : Type}

/-- The features in the second output, by name and by number, are among those in the first, in the same order. -/
def FeaturesShrink (d d' : Dict Name (Val V W)) : Prop :=
  ∃ f f' i i', d .feat_labels = some (.names f) ∧ d' .feat_labels = some (.names f') ∧
    d .selvars = some (.counts i) ∧ d' .selvars = some (.counts i') ∧ f'.Sublist f ∧ i'.Sublist i

/-- A build whose output has no table of clusters. -/
def NothingClustered (d : Dict Name (Val V W)) : Prop := ∀ c, d .clust ≠ some (.verdicts c)

/-- What is known about the correlations does not depend on the threshold. -/
theorem correlations_threshold {env : Env V W} {thr' : Num} {x y : Mat Num} {yb : List (List Bool)}
    {c c' : Option Sifted.Performance} (h : correlations env x y yb = .ok c)
    (h' : correlations { env with thr := thr' } x y yb = .ok c') :
    c'.map (·.rho) = c.map (·.rho) ∧ c'.map (·.pval) = c.map (·.pval) := by
  unfold correlations at h h'
  by_cases h3 : x.ncols ≤ 3
  · rw [if_pos h3] at h h'
    cases h
    cases h'
    exact ⟨rfl, rfl⟩
  rw [if_neg h3] at h h'
  dsimp only at h'
  split at h
  · cases h
  rename_i p hp
  split at h'
  · cases h'
  rename_i p' hp'
  cases h
  cases h'
  obtain ⟨r, hr, rfl⟩ := Sifted.selectFeatures_ok hp
  obtain ⟨r', hr', rfl⟩ := Sifted.selectFeatures_ok hp'
  rw [hr] at hr'
  obtain rfl := Except.ok.inj hr'
  exact ⟨rfl, rfl⟩

/-- **C234** for whole builds, as far as it holds: of two builds of the same metadata that differ in the correlation
threshold only, if nothing is clustered in the one with the lower threshold, then nothing is in the other, the
features in its output are among those of the first in the same order, and both report the same correlations.  What is
missing is false (`C234_build_refuted`). -/
theorem C234_build_partial {num : V → Num} {env : Env V W} {thr thr' : ℚ} {m : Meta V} {l : List V}
    {s : Option (List V)} (hm : Fitting l s m) (hthr : env.thr = .fin thr) (hle : thr ≤ thr')
    (tuples : ∀ k s vs out, env.rest k s vs = .ok out → out.map Prod.fst = (outputs s).map Prod.fst)
    {order : List Stg} {π : Builder.SetOrder Stg} {sched : List (List Stg)}
    (horder : order.Perm defaultStages) (hs : buildDefault order π = .ok sched)
    (ops ops' : List (Op Stg Name (Val V W))) {d d' : Dict Name (Val V W)}
    (h : contents (runAll (runner order sched (run env)) (exec (runner order sched (run env)) ops).st
      (args env num m)) = .ok d)
    (h' : contents (runAll (runner order sched (run { env with thr := .fin thr' }))
      (exec (runner order sched (run { env with thr := .fin thr' })) ops').st
      (args { env with thr := .fin thr' } num m)) = .ok d')
    (hc : NothingClustered d) :
    NothingClustered d' ∧ FeaturesShrink d d' ∧ d' .rho = d .rho ∧ d' .pval = d .pval := by
  rw [contents_apply horder hs] at h h'
  have main : ∃ rest, sched.flatten = .preprocessing :: .prelim :: .sifted :: rest ∧
      ∀ s ∈ rest, s = Stg.pilot ∨ s = .pythia ∨ s = .cloister ∨ s = .trace := by
    rcases Pipeline.C10_default_schedule order horder π with h | h <;>
      · rw [hs] at h
        obtain rfl := Except.ok.inj h
        exact ⟨_, rfl, by decide⟩
  obtain ⟨rest, e, hrest⟩ := main
  rw [e] at h h'
  have hkeep : ∀ n ∈ [Name.feat_labels, .selvars, .clust, .rho, .pval], ∀ s ∈ rest, (s = Stg.pilot ∨
      s = .pythia ∨ s = .cloister ∨ s = .trace) ∧ n ∉ (outputs s).map Prod.fst := fun n hn s hs => ⟨hrest s hs, by
    revert n
    rcases hrest s hs with rfl | rfl | rfl | rfl <;> decide⟩
  obtain ⟨o, outs, ys, a, dense, c, q, r1, r2, r3, r4, r5, r6, hlast⟩ := front hm h
  obtain ⟨p, outs', ys', a', dense', c', q', r1', r2', r3', r4', r5', r6', hlast'⟩ := front hm h'
  dsimp only at r1' r2' r3'
  rw [r1] at r1'
  obtain rfl := Except.ok.inj r1'
  rw [r2] at r2'
  obtain rfl := Option.some.inj r2'
  rw [r3] at r3'
  obtain rfl := Option.some.inj r3'
  have r4'' := r4.symm.trans r4'
  obtain ⟨rfl, rfl⟩ := Prod.mk.inj (Except.ok.inj r4'')
  obtain ⟨e1, e2⟩ := correlations_threshold r5 r5'
  dsimp only at r6'
  rw [e1] at r6'
  rw [hthr] at r6
  have look : ∀ n ∈ [Name.feat_labels, .selvars, .clust, .rho, .pval], _ := fun n hn =>
    (⟨rest_keeps tuples (hkeep n hn) hlast,
      rest_keeps (env := { env with thr := .fin thr' }) tuples (hkeep n hn) hlast'⟩ : _ ∧ _)
  have k1 : d .clust = some ((q.clust.map Val.verdicts).getD (.other (env.fill .clust))) :=
    (look _ (by decide)).1.trans rfl
  have k2 : d' .clust = some ((q'.clust.map Val.verdicts).getD (.other (env.fill .clust))) :=
    (look _ (by decide)).2.trans rfl
  have hq : q.clust = none := by
    cases e : q.clust with
    | none => rfl
    | some t =>
      rw [e] at k1
      exact absurd k1 (hc t)
  obtain ⟨g1, g2, -, g4, -⟩ := Sifted.C234_partial hle r6 r6' hq
  refine ⟨fun t ht => ?_, ⟨q.featLabels, q'.featLabels, q.selvars, q'.selvars, ?_, ?_, ?_, ?_, g4, g2⟩, ?_, ?_⟩
  · rw [k2, g1] at ht
    cases ht
  · exact (look _ (by decide)).1.trans rfl
  · exact (look _ (by decide)).2.trans rfl
  · exact (look _ (by decide)).1.trans rfl
  · exact (look _ (by decide)).2.trans rfl
  · have u : d .rho = some (((c.map (·.rho)).map fun r => Val.table ⟨o.data.y.ncols, r⟩).getD
        (.other (env.fill .rho))) := (look _ (by decide)).1.trans (by rw [Option.map_map]; rfl)
    have v : d' .rho = some (((c'.map (·.rho)).map fun r => Val.table ⟨o.data.y.ncols, r⟩).getD
        (.other (env.fill .rho))) := (look _ (by decide)).2.trans (by rw [Option.map_map]; rfl)
    rw [u, v, e1]
  · have u : d .pval = some (((c.map (·.pval)).map fun r => Val.table ⟨o.data.y.ncols, r⟩).getD
        (.other (env.fill .pval))) := (look _ (by decide)).1.trans (by rw [Option.map_map]; rfl)
    have v : d' .pval = some (((c'.map (·.pval)).map fun r => Val.table ⟨o.data.y.ncols, r⟩).getD
        (.other (env.fill .pval))) := (look _ (by decide)).2.trans (by rw [Option.map_map]; rfl)
    rw [u, v, e2]

/-- Whether an output has a table of clusters. -/
def clusteredIn {E : Type} (r : Except E (Dict Name (Val V W))) : Bool :=
  match r with
  | .ok d => match d .clust with
    | some (.verdicts _) => true
    | _ => false
  | _ => false

-- The hypotheses of `C234_build_partial` hold with five features: four of them remain with the threshold 1/2, nothing
-- is clustered, and two remain with 3/4.
example : Fitting [10, 11, 12] none fiveMeta ∧ fiveEnv.thr = .fin (1 / 2) ∧ (1 / 2 : ℚ) ≤ 3 / 4 ∧
    (∀ k s vs out, fiveEnv.rest k s vs = .ok out → out.map Prod.fst = (outputs s).map Prod.fst) ∧
    selectedIn (contents (runAll (runner defaultStages Pipeline.defaultSchedule (run fiveEnv)) Runner.State.init
      (args fiveEnv lateNum fiveMeta))) = some ["feature_a", "feature_b", "feature_c", "feature_e"] ∧
    clusteredIn (contents (runAll (runner defaultStages Pipeline.defaultSchedule (run fiveEnv)) Runner.State.init
      (args fiveEnv lateNum fiveMeta))) = false ∧
    selectedIn (contents (runAll (runner defaultStages Pipeline.defaultSchedule
      (run { fiveEnv with thr := .fin (3 / 4) })) Runner.State.init
      (args { fiveEnv with thr := .fin (3 / 4) } lateNum fiveMeta))) = some ["feature_a", "feature_b"] :=
  ⟨five_fitting, rfl, by norm_num, five_tuples, by decide +kernel, by decide +kernel, by decide +kernel⟩

/-! ### Refuted for whole builds -/

/-- The full claim for whole builds, with clusterings and searches that do what they should. -/
def NeverAddedBuild (V W : Type) : Prop :=
  ∀ (num : V → Num) (env : Env V W) (thr thr' : ℚ) (m : Meta V) (l : List V) (s : Option (List V))
    (d d' : Dict Name (Val V W)), Fitting l s m → env.thr = .fin thr → thr ≤ thr' →
    (∀ k s vs out, env.rest k s vs = .ok out → out.map Prod.fst = (outputs s).map Prod.fst) →
    (∀ x y yb, Sifted.Delivers (env.lib x y yb) env.clusters ∧ Sifted.Sorts (env.lib x y yb).argsort) →
    contents (runAll (runner defaultStages Pipeline.defaultSchedule (run env)) Runner.State.init
      (args env num m)) = .ok d →
    contents (runAll (runner defaultStages Pipeline.defaultSchedule (run { env with thr := .fin thr' }))
      Runner.State.init (args { env with thr := .fin thr' } num m)) = .ok d' →
    FeaturesShrink d d'

/-- The five features with the threshold 0 and three clusters. -/
def crowdedEnv : Env Nat Unit :=
  { fiveEnv with thr := .fin 0, clusters := 3, lib := fun _ _ _ => Sifted.exLib }

/-- **C234** is false for whole builds: with the threshold 0 five features remain and are clustered, and the first is
left out; with the threshold 3/4 two remain, the first among them. -/
theorem C234_build_refuted : ¬ NeverAddedBuild Nat Unit := by
  intro hall
  have h1 : selectedIn (contents (runAll (runner defaultStages Pipeline.defaultSchedule (run crowdedEnv))
      Runner.State.init (args crowdedEnv lateNum fiveMeta))) =
      some ["feature_b", "feature_c", "feature_d"] := by decide +kernel
  have h2 : selectedIn (contents (runAll (runner defaultStages Pipeline.defaultSchedule
      (run { crowdedEnv with thr := .fin (3 / 4) })) Runner.State.init
      (args { crowdedEnv with thr := .fin (3 / 4) } lateNum fiveMeta))) =
      some ["feature_a", "feature_b"] := by decide +kernel
  have names : ∀ {d : Dict Name (Val Nat Unit)} {g : List String},
      selectedIn (.ok d) = some g →
      d .feat_labels = some (.names g) := by
    intro d g h
    unfold selectedIn at h
    dsimp only at h
    split at h
    · rename_i l hl
      rw [hl, Option.some.inj h]
    · cases h
  cases e1 : contents (runAll (runner defaultStages Pipeline.defaultSchedule (run crowdedEnv))
      Runner.State.init (args crowdedEnv lateNum fiveMeta)) with
  | error e => rw [e1] at h1; cases h1
  | ok d =>
    cases e2 : contents (runAll (runner defaultStages Pipeline.defaultSchedule
      (run { crowdedEnv with thr := .fin (3 / 4) })) Runner.State.init
      (args { crowdedEnv with thr := .fin (3 / 4) } lateNum fiveMeta)) with
    | error e => rw [e2] at h2; cases h2
    | ok d' =>
      rw [e1] at h1
      rw [e2] at h2
      obtain ⟨f, f', i, i', k1, k2, -, -, k5, -⟩ := hall lateNum crowdedEnv 0 (3 / 4) fiveMeta _ none d d' five_fitting
        rfl (by norm_num) five_tuples (fun _ _ _ => ⟨Sifted.exLib_delivers, Sifted.argsortRef_sorts⟩) e1 e2
      rw [names h1] at k1
      rw [names h2] at k2
      cases k1
      cases k2
      exact absurd (k5.subset List.mem_cons_self) (by decide)

end Verif.EndToEnd
