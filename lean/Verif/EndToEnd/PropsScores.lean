import Verif.EndToEnd.SpecScores
import Verif.EndToEnd.PropsGrounds
/-!
# C230: the silhouette scores in the Model
-/
set_option autoImplicit false
set_option linter.unusedSectionVars false

namespace Verif.Sifted

private theorem evaluated {score : Nat → ℚ} {labels : Nat → List Nat} {n k : Nat} {r : List ℚ × List Nat}
    (h : evaluateCluster score labels n k = .ok r) : r.1 = ((List.range (n - 2)).map (· + 2)).map score := by
  unfold evaluateCluster at h
  dsimp only at h
  split at h
  · cases h
  rename_i a l e
  split at h
  · cases h
  split at h
  · cases h
    exact e.symm
  · cases h

/-- When SIFTED returns scores it returns clusters, and both are about the features selected by their correlations. -/
theorem sifted_scores {α : Type} {lib : Lib} {rho : List (List Num)} {thr : Num} {k nalgos : Nat}
    {x : List α} {labels : List String} {dense : Bool} {out : Out α} {l : List ℚ}
    (h : sifted lib rho thr k nalgos x labels dense = .ok out) (hc : out.silhouettes = some l) :
    3 < (selectByPerformance lib.argsort rho thr x.length nalgos).length ∧
    l = ((List.range ((selectByPerformance lib.argsort rho thr x.length nalgos).length - 2)).map (· + 2)).map
      (lib.silhouette (selectByPerformance lib.argsort rho thr x.length nalgos)) ∧
    out.clust = some (clustOf (lib.kmeans (selectByPerformance lib.argsort rho thr x.length nalgos) k) k) := by
  unfold sifted at h
  simp only at h
  split at h
  · cases h
  split at h
  · cases h; cases hc
  split at h
  · cases h
  split at h
  · cases h; cases hc
  rename_i hlt
  split at h
  · cases h
  rename_i scores _ he
  split at h
  · cases h
  split at h
  · cases h
  split at h
  · cases h
  cases h
  simp only [Option.some.injEq] at hc
  subst hc
  exact ⟨by omega, evaluated he, rfl⟩

end Verif.Sifted

namespace Verif.EndToEnd

open Verif (Num)
open Verif.Pipeline (Stg Name inputs outputs)
open Verif.Metadata (Table Squeezed)
open Verif.Preprocessing (Mat)
open Verif.Runner (Dict)

variable {V W : Type} {lower : String → String} {numeric : Squeezed V → Bool} {str : V → V}
  {num : V → Num} {env : Env V W} {le : Nat → Late V W} {t : Table V} {d : Dict Name (Val V W)}

/-- **C230 (part).** If the Model has silhouette scores, it has an array of clusters, and there are features `pre`, one
for each row of that array and the selected ones among them, such that the scores are those of the clusterings of
`pre` in 2, 3, … clusters, up to one less than there are rows. The library sees the performances and verdicts of the
Model and features `x'` of which the selected columns are those of the Model.
Missing: `pre` are the features before the last selection, not those of the Model (`C230_refuted`). -/
theorem C230_partial {l : List Num} {sel : List Nat} {x y : Mat Num} {yb : List (List Bool)}
    (hc : Complete env le) (hl : Clusters env) (h : Succeeds lower numeric str num env t d)
    (h1 : d .silhouette_scores = some (.numbers l)) (h2 : d .selvars = some (.counts sel))
    (h3 : d .x = some (.table x)) (h4 : d .y = some (.table y)) (h5 : d .y_bin = some (.verdicts yb)) :
    ∃ clust pre x', d .clust = some (.verdicts clust) ∧ Represented clust env.clusters pre sel ∧
      Scored (env.lib x' y yb).silhouette pre l ∧
      ∀ j i : Nat, sel[j]? = some i → ∀ r : Nat, r < x'.rows.length → At x.rows r j
        ((x'.rows[r]?.getD []).getD i .nan) := by
  obtain ⟨vs1, vs2, vs3, o1, o2, o3, r1, r2, r3, i1, i2, i3, hd⟩ := succeeds_stages hc.tuples h
  obtain ⟨x2, y2, yBin2, xRaw2, yRaw2, beta2, ng2, yb2, p2, inst2, feat2, s2, z3, z4, present, z5, corr, o,
    rfl, hcorr, hsel, rfl⟩ := sifted_ok r3
  have e1 : d .silhouette_scores = some ((o.silhouettes.map fun l => Val.numbers (l.map .fin)).getD
      (.other (env.fill .silhouette_scores))) := (hd _ (by decide)).trans rfl
  have e2 : d .selvars = some (.counts o.selvars) := (hd _ (by decide)).trans rfl
  have e3 : d .x = some (.table ⟨o.x.length, rowsOf x2.rows.length o.x⟩) := (hd _ (by decide)).trans rfl
  have e4 : d .y = some (.table y2) := (hd _ (by decide)).trans rfl
  have e5 : d .y_bin = some (.verdicts yBin2) := (hd _ (by decide)).trans rfl
  have e6 : d .clust = some ((o.clust.map Val.verdicts).getD (.other (env.fill .clust))) :=
    (hd _ (by decide)).trans rfl
  rw [h1] at e1
  rw [h2] at e2
  rw [h3] at e3
  rw [h4] at e4
  rw [h5] at e5
  cases e2
  cases e3
  cases e4
  cases e5
  cases ho : o.silhouettes with
  | none => rw [ho] at e1; cases e1
  | some scores =>
    rw [ho] at e1
    simp only [Option.map_some, Option.getD_some, Option.some.injEq, Val.numbers.injEq] at e1
    subst e1
    obtain ⟨g0, g1, g2⟩ := Sifted.sifted_scores hsel ho
    rw [g2] at e6
    obtain ⟨f, best, b1, -, -, b3, -⟩ := Sifted.sifted_clust hsel g2
    obtain ⟨k1, k2, k3⟩ := Sifted.sifted_columns hsel
    have hsort := Sifted.selectByPerformance_sorted (env.lib x2 y yb).argsort ((corr.map (·.rho)).getD []) env.thr
      (Prelim.columns x2.ncols x2.rows).length y.ncols
    have rep := clusters_represented (hl.labels x2 y yb _ env.clusters) hsort (hl.genes _ _ _ _ _ b1) b3
    refine ⟨_, _, x2, e6, rep, ⟨?_, ?_⟩, ?_⟩
    · rw [g1]
      simp only [List.length_map, List.length_range]
      omega
    · intro c hc1 hc2
      rw [g1]
      simp only [List.getElem?_map]
      rw [List.getElem?_range (by omega)]
      simp only [Option.map_some]
      rw [Nat.sub_add_cancel hc1]
    · intro j i hj r hr
      have hi : i < x2.ncols := by
        have := k1 i (List.mem_of_getElem? hj)
        simpa [Prelim.columns] using this
      have hcol := k3 j i hj
      have hcol' : (Prelim.columns x2.ncols x2.rows)[i]? = some (x2.rows.map fun r => r.getD i .nan) := by
        simp only [Prelim.columns, List.getElem?_map, List.getElem?_range hi, Option.map_some]
      rw [hcol'] at hcol
      refine ⟨o.x.map fun c => c.getD r .nan, ?_, ?_⟩
      · unfold rowsOf
        rw [List.getElem?_map, List.getElem?_range hr]
        rfl
      · rw [List.getElem?_map, hcol]
        simp [List.getD, List.getElem?_map, List.getElem?_eq_getElem hr]

/-- The scores in an output. -/
def scoresOf {V W : Type} (d : Dict Name (Val V W)) : Option (List Num × List Nat × List String) :=
  match d .silhouette_scores, d .selvars, d .feat_labels with
  | some (.numbers c), some (.counts s), some (.names l) => some (c, s, l)
  | _, _, _ => none

theorem scores_run : ∃ d, Succeeds id (fun _ => false) id lateNum clusterEnv wideTable d ∧
    d .silhouette_scores = some (.numbers [.fin 2, .fin 3]) ∧ d .selvars = some (.counts [0, 2, 3]) ∧
    d .feat_labels = some (.names ["feature_a", "feature_c", "feature_d"]) := by
  obtain ⟨d, h1, h2⟩ := cleanRun_succeeds (env := clusterEnv) (t := wideTable) (by decide +kernel)
  have h : (cleanRun clusterEnv wideTable).toOption.bind scoresOf = some ([.fin 2, .fin 3], [0, 2, 3],
      ["feature_a", "feature_c", "feature_d"]) := by decide +kernel
  rw [h1] at h
  simp only [Except.toOption, Option.bind_some, scoresOf] at h
  split at h
  · rename_i l s m e1 e2 e3
    simp only [Option.some.injEq, Prod.mk.injEq] at h
    obtain ⟨rfl, rfl, rfl⟩ := h
    exact ⟨d, h2, e1, e2, e3⟩
  · cases h

-- The hypotheses of `C230_partial` hold: four features in two and in three clusters.
example : Complete clusterEnv (allLate false) ∧ Clusters clusterEnv ∧ ∃ d,
    Succeeds id (fun _ => false) id lateNum clusterEnv wideTable d ∧
    d .silhouette_scores = some (.numbers [.fin 2, .fin 3]) ∧ d .selvars = some (.counts [0, 2, 3]) := by
  obtain ⟨d, h1, h2, h3, -⟩ := scores_run
  exact ⟨cluster_complete.complete, cluster_contracts, d, h1, h2, h3⟩

/-- **C230** is false in full: the scores are for up to three clusters, of four features, the Model has three features,
which have clusterings in two clusters only. -/
theorem C230_refuted : ∃ (env : Env Nat (Kept (List (ℚ × ℚ)))) (t : Table Nat)
    (d : Dict Name (Val Nat (Kept (List (ℚ × ℚ))))), Complete env (allLate false) ∧ Clusters env ∧
    Succeeds id (fun _ => false) id lateNum env t d ∧ ¬ ScoresOfFeatures d := by
  obtain ⟨d, h1, h2, h3, h4⟩ := scores_run
  exact ⟨clusterEnv, wideTable, d, cluster_complete.complete, cluster_contracts, h1, fun h => by
    cases h _ _ h2 h4⟩

end Verif.EndToEnd
