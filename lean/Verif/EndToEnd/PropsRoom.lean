import Verif.EndToEnd.PropsFewer
/-!
# C235: the number of clusters matters only if features are clustered
-/
set_option autoImplicit false
set_option linter.unusedSectionVars false

namespace Verif.EndToEnd

open Verif (Num)
open Verif.Pipeline (Stg Name runner defaultStages buildDefault inputs outputs)
open Verif.Metadata (Meta)
open Verif.Runner (Dict runAll contents applyAll applyStage)

variable {V W : Type}

/-- A selection without clustering is the same for every number of clusters that its size does not exceed. -/
theorem sifted_room {α : Type} {lib : Sifted.Lib} {rho : List (List Num)} {thr : Num} {k k' nalgos : Nat}
    {x : List α} {feat : List String} {dense : Bool} {q : Sifted.Out α}
    (h : Sifted.sifted lib rho thr k nalgos x feat dense = .ok q) (hc : q.clust = none)
    (hk : q.selvars.length ≤ 3 ∨ q.selvars.length ≤ k') :
    Sifted.sifted lib rho thr k' nalgos x feat dense = .ok q := by
  unfold Sifted.sifted at h ⊢
  dsimp only at h ⊢
  by_cases h1 : x.length ≤ 1
  · rw [if_pos h1] at h; cases h
  rw [if_neg h1] at h ⊢
  by_cases h3 : x.length ≤ 3
  · rw [if_pos h3] at h ⊢
    exact h
  rw [if_neg h3] at h ⊢
  split at h
  · cases h
  rename_i m1
  rw [if_neg m1]
  split at h
  · cases h
    rw [if_pos hk]
  · exfalso
    split at h
    · cases h
    · split at h
      · cases h
      · split at h
        · cases h
        · split at h
          · cases h
          · cases h
            cases hc

/-- What SIFTED returns, without clustering, for another number of clusters. -/
theorem runSifted_room {env : Env V W} {k' : Nat} {vs : List (Val V W)} {out : List (Name × Val V W)}
    (h : runSifted env vs = .ok out) {d0 : Dict Name (Val V W)} (hc : NothingClustered (Runner.override d0 out))
    {i : List Nat} (hi : Runner.override d0 out .selvars = some (.counts i)) (hk : i.length ≤ 3 ∨ i.length ≤ k') :
    runSifted { env with clusters := k' } vs = .ok out := by
  obtain ⟨x, y, yb, xRaw, yRaw, beta, ng, best, p, inst, feat, s, z, z', b, z'', c, q, rfl, g1, g2, rfl⟩ := sifted_ok h
  have hq : q.clust = none := by
    cases e : q.clust with
    | none => rfl
    | some t =>
      refine absurd ?_ (hc t)
      have : some ((q.clust.map Val.verdicts).getD (.other (env.fill .clust))) = some (Val.verdicts (V := V) (W := W) t) := by
        rw [e]; rfl
      exact this
  have hi : some (Val.counts (V := V) (W := W) q.selvars) = some (.counts i) := hi
  cases hi
  have g1' : correlations { env with clusters := k' } x y yb = .ok c := g1
  have g2' := sifted_room g2 hq hk
  unfold runSifted
  dsimp only
  rw [g1']
  dsimp only
  rw [g2']
  rfl

/-- The stages after SIFTED do not look at the number of clusters. -/
theorem applyAll_room {env : Env V W} {k' : Nat} {sched : List (List Stg)} : ∀ {l : List Stg} {k : Nat}
    {d : Dict Name (Val V W)}, Stg.sifted ∉ l →
    applyAll ⟨sched, fun s => (inputs s).map Prod.fst, run { env with clusters := k' }⟩ k l d =
      applyAll ⟨sched, fun s => (inputs s).map Prod.fst, run env⟩ k l d := by
  intro l
  induction l with
  | nil => intros; rfl
  | cons s l ih =>
    intro k d hs
    have e : applyStage ⟨sched, fun s => (inputs s).map Prod.fst, run { env with clusters := k' }⟩ k s d =
        applyStage ⟨sched, fun s => (inputs s).map Prod.fst, run env⟩ k s d := by
      cases s <;> first | exact absurd List.mem_cons_self hs | rfl
    unfold applyAll
    rw [e]
    cases applyStage ⟨sched, fun s => (inputs s).map Prod.fst, run env⟩ k s d with
    | error _ => rfl
    | ok d => exact ih fun h => hs (List.mem_cons_of_mem _ h)

/-- **C235.** If a build completes without clustering features, then it completes with the very same output for every
number of clusters that the number of features it selected does not exceed, and for every number at all if it
selected three features or fewer. -/
theorem C235_clusters {num : V → Num} {env : Env V W} {k' : Nat} {m : Meta V}
    (tuples : ∀ k s vs out, env.rest k s vs = .ok out → out.map Prod.fst = (outputs s).map Prod.fst)
    {order : List Stg} {π : Builder.SetOrder Stg} {sched : List (List Stg)}
    (horder : order.Perm defaultStages) (hs : buildDefault order π = .ok sched) {d : Dict Name (Val V W)}
    (h : contents (runAll (runner order sched (run env)) Runner.State.init (args env num m)) = .ok d)
    (hc : NothingClustered d) {i : List Nat} (hi : d .selvars = some (.counts i))
    (hk : i.length ≤ 3 ∨ i.length ≤ k') :
    contents (runAll (runner order sched (run { env with clusters := k' })) Runner.State.init
      (args { env with clusters := k' } num m)) = .ok d := by
  have c1 := contents_apply (env := env) horder hs [] (args env num m)
  have c2 := contents_apply (env := { env with clusters := k' }) horder hs []
    (args { env with clusters := k' } num m)
  have z1 : (Runner.exec (runner order sched (run env)) []).st = Runner.State.init := rfl
  have z2 : (Runner.exec (runner order sched (run { env with clusters := k' })) []).st = Runner.State.init := rfl
  rw [z1] at c1
  rw [z2] at c2
  rw [c1] at h
  rw [c2]
  have main : ∃ rest, sched.flatten = .preprocessing :: .prelim :: .sifted :: rest ∧
      ∀ s ∈ rest, s = Stg.pilot ∨ s = .pythia ∨ s = .cloister ∨ s = .trace := by
    rcases Pipeline.C10_default_schedule order horder π with h | h <;>
      · rw [hs] at h
        obtain rfl := Except.ok.inj h
        exact ⟨_, rfl, by decide⟩
  obtain ⟨rest, e, hrest⟩ := main
  rw [e] at h ⊢
  have hkeep : ∀ n ∈ [Name.selvars, .clust], ∀ s ∈ rest, (s = Stg.pilot ∨
      s = .pythia ∨ s = .cloister ∨ s = .trace) ∧ n ∉ (outputs s).map Prod.fst := fun n hn s hs => ⟨hrest s hs, by
    revert n
    rcases hrest s hs with rfl | rfl | rfl | rfl <;> decide⟩
  have hno : Stg.sifted ∉ rest := fun hm => by rcases hrest _ hm with h | h | h | h <;> cases h
  change applyAll _ _ ([.preprocessing, .prelim] ++ .sifted :: rest) (args env num m) = _
  change applyAll _ _ ([.preprocessing, .prelim] ++ .sifted :: rest) _ = _ at h
  change applyAll _ 0 _ _ = _
  change applyAll _ 0 _ _ = _ at h
  rw [Runner.applyAll_append] at h ⊢
  rw [applyAll_room (by decide)]
  cases e1 : applyAll ⟨sched, fun s => (inputs s).map Prod.fst, run env⟩ 0 [.preprocessing, .prelim]
      (args env num m) with
  | error x => rw [e1] at h; cases h
  | ok d1 =>
    rw [e1] at h
    dsimp only at h ⊢
    generalize 0 + [Stg.preprocessing, .prelim].length = k at h ⊢
    unfold applyAll at h ⊢
    cases e2 : applyStage ⟨sched, fun s => (inputs s).map Prod.fst, run env⟩ k .sifted d1 with
    | error x => rw [e2] at h; cases h
    | ok d2 =>
      rw [e2] at h
      dsimp only at h
      obtain ⟨g1, out, g2, rfl⟩ := Runner.applyStage_ok e2
      have w1 := rest_keeps tuples (hkeep .selvars (by decide)) h
      have w2 := rest_keeps tuples (hkeep .clust (by decide)) h
      have g2' := runSifted_room (k' := k') g2 (d0 := d1) (fun c => by rw [← w2]; exact hc c) (w1.symm.trans hi) hk
      rw [Runner.applyStage_of (P := ⟨sched, fun s => (inputs s).map Prod.fst, run { env with clusters := k' }⟩) (k := k)
        (s := .sifted) (out := out) g1 g2']
      dsimp only
      rw [applyAll_room hno]
      exact h

-- The hypotheses of `C235_clusters` hold with five features of which four remain: there is room for four clusters, and
-- the output is that of the build for seven.
example : (∀ k s vs out, fiveEnv.rest k s vs = .ok out → out.map Prod.fst = (outputs s).map Prod.fst) ∧
    fiveEnv.clusters = 4 ∧
    selectedIn (contents (runAll (runner defaultStages Pipeline.defaultSchedule (run fiveEnv)) Runner.State.init
      (args fiveEnv lateNum fiveMeta))) = some ["feature_a", "feature_b", "feature_c", "feature_e"] ∧
    clusteredIn (contents (runAll (runner defaultStages Pipeline.defaultSchedule (run fiveEnv)) Runner.State.init
      (args fiveEnv lateNum fiveMeta))) = false ∧
    selectedIn (contents (runAll (runner defaultStages Pipeline.defaultSchedule (run { fiveEnv with clusters := 7 }))
      Runner.State.init (args { fiveEnv with clusters := 7 } lateNum fiveMeta))) =
        some ["feature_a", "feature_b", "feature_c", "feature_e"] :=
  ⟨five_tuples, rfl, by decide +kernel, by decide +kernel, by decide +kernel⟩

end Verif.EndToEnd
