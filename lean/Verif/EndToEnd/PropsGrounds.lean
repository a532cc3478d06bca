import Verif.EndToEnd.GroundsLemmas
import Verif.EndToEnd.PropsRecompute
/-!
# C205, C206, C207: what the Model says about the selection of features
-/
set_option autoImplicit false
set_option linter.unusedSectionVars false

namespace Verif.EndToEnd

open Verif (Num)
open Verif.Pipeline (Stg Name runner defaultStages buildDefault outputs)
open Verif.Metadata (Table Squeezed Begins fromDataFrame)
open Verif.Preprocessing (Mat)
open Verif.Runner (Dict)

variable {V W : Type} {lower : String → String} {numeric : Squeezed V → Bool} {str : V → V}
  {num : V → Num} {env : Env V W} {le : Nat → Late V W} {t : Table V} {d : Dict Name (Val V W)}

/-! ### C205 -/

/-- **C205.** After a run, with or without a subset of the instances, the row of `rho` and `pval` that `selvars`
gives for a feature of the Model is what `pearsonr` finds for that column of `x` and each column of `y` of the
Model, on the instances that have both values; a coefficient that is missing or not significant is 0 in `rho`. -/
theorem C205_correlated {x y rho pval : Mat Num} {sel : List Nat} (hc : Complete env le)
    (h : Succeeds lower numeric str num env t d) (hr : Reported d x y rho pval sel) :
    ∀ j i : Nat, sel[j]? = some i → Correlates env.pearson x.rows y.rows y.ncols rho.rows pval.rows i j :=
  (reported hc.tuples h hr).2.2.2

/-- What an output says about correlations. -/
def reportOf {V W : Type} (d : Dict Name (Val V W)) : Option (Mat Num × Mat Num × Mat Num × Mat Num × List Nat) :=
  match d .x, d .y, d .rho, d .pval, d .selvars with
  | some (.table x), some (.table y), some (.table r), some (.table p), some (.counts s) => some (x, y, r, p, s)
  | _, _, _, _, _ => none

theorem reportOf_some {V W : Type} {d : Dict Name (Val V W)} {x y r p : Mat Num} {s : List Nat}
    (h : reportOf d = some (x, y, r, p, s)) : Reported d x y r p s := by
  unfold reportOf at h
  split at h
  · rename_i x' y' r' p' s' e1 e2 e3 e4 e5
    cases h
    exact ⟨e1, e2, e5, e3, e4⟩
  · cases h

theorem wide_report : ∃ d x y r p, Succeeds id (fun _ => false) id lateNum wideEnv wideTable d ∧
    Reported d x y r p [0, 1, 3] ∧ x.ncols = 3 ∧ y.ncols = 2 ∧
    At x.rows 0 2 (.fin 33) ∧ At y.rows 0 0 (.fin 4) ∧
    r.rows = [[.fin (1 / 10), .fin (1 / 10)], [.fin (8 / 10), .fin (8 / 10)], [.fin (2 / 10), .fin (2 / 10)],
      [.fin (7 / 10), .fin (7 / 10)]] ∧
    related wideEnv.pearson (paired x.rows y.rows 2 0) = (.fin (7 / 10), 0) := by
  obtain ⟨d, h1, h2⟩ := cleanRun_succeeds (env := wideEnv) (t := wideTable) (by decide +kernel)
  have h : ∃ q, (cleanRun wideEnv wideTable).toOption.bind reportOf = some q ∧ q.2.2.2.2 = [0, 1, 3] ∧
      q.1.ncols = 3 ∧ q.2.1.ncols = 2 ∧ (q.1.rows[0]?.bind fun r => r[2]?) = some (.fin 33) ∧
      (q.2.1.rows[0]?.bind fun r => r[0]?) = some (.fin 4) ∧
      q.2.2.1.rows = [[.fin (1 / 10), .fin (1 / 10)], [.fin (8 / 10), .fin (8 / 10)],
        [.fin (2 / 10), .fin (2 / 10)], [.fin (7 / 10), .fin (7 / 10)]] ∧
      related wideEnv.pearson (paired q.1.rows q.2.1.rows 2 0) = (.fin (7 / 10), 0) := by
    have h : ((cleanRun wideEnv wideTable).toOption.bind reportOf).any (fun q => q.2.2.2.2 = [0, 1, 3] ∧
      q.1.ncols = 3 ∧ q.2.1.ncols = 2 ∧ (q.1.rows[0]?.bind fun r => r[2]?) = some (.fin 33) ∧
      (q.2.1.rows[0]?.bind fun r => r[0]?) = some (.fin 4) ∧
      q.2.2.1.rows = [[.fin (1 / 10), .fin (1 / 10)], [.fin (8 / 10), .fin (8 / 10)],
        [.fin (2 / 10), .fin (2 / 10)], [.fin (7 / 10), .fin (7 / 10)]] ∧
      related wideEnv.pearson (paired q.1.rows q.2.1.rows 2 0) = (.fin (7 / 10), 0)) = true := by
      decide +kernel
    obtain ⟨q, hq, hp⟩ := Option.any_eq_true _ _ |>.1 h
    exact ⟨q, hq, of_decide_eq_true hp⟩
  obtain ⟨⟨x, y, r, p, s⟩, e1, e2, e3, e4, e5, e6, e7, e8⟩ := h
  rw [h1] at e1
  dsimp only at e2 e3 e4 e5 e6 e7 e8
  subst e2
  refine ⟨d, x, y, r, p, h2, reportOf_some e1, e3, e4, bind_at.1 e5, bind_at.1 e6, e7, e8⟩

example : Complete wideEnv (allLate false) ∧ ∃ d x y r p,
    Succeeds id (fun _ => false) id lateNum wideEnv wideTable d ∧ Reported d x y r p [0, 1, 3] ∧ y.ncols = 2 := by
  obtain ⟨d, x, y, r, p, h1, h2, -, h3, -⟩ := wide_report
  exact ⟨wide_complete.complete, d, x, y, r, p, h1, h2, h3⟩

/-! ### C206 -/

/-- The property: the correlations in the Model are about its features, row by row. -/
def CorrelationsLinedUp (env : Env V W) (d : Dict Name (Val V W)) : Prop :=
  ∀ x y rho pval sel, Reported d x y rho pval sel → rho.rows.length = x.ncols ∧
    ∀ j < x.ncols, Correlates env.pearson x.rows y.rows y.ncols rho.rows pval.rows j j

/-- **C206 (part).** If SIFTED drops no feature, row `j` of `rho` and `pval` is about feature `j`.
Missing: with fewer features than before the rows are those of all features (`C206_refuted`); `selvars` tells
where a feature is found (C205). -/
theorem C206_partial {x y rho pval : Mat Num} {sel : List Nat} (hc : Complete env le)
    (h : Succeeds lower numeric str num env t d) (hr : Reported d x y rho pval sel)
    (hall : sel.length = rho.rows.length) :
    rho.rows.length = x.ncols ∧
      ∀ j < x.ncols, Correlates env.pearson x.rows y.rows y.ncols rho.rows pval.rows j j := by
  obtain ⟨hsel, hx⟩ := reported_range hc.tuples h hr hall
  exact ⟨by rw [hx, hall], fun j hj => C205_correlated hc h hr j j (by
    rw [hsel, List.getElem?_range (by omega)])⟩

/-- All four features reach the threshold, and there are not more features than clusters. -/
def keepEnv : Env Nat (Kept (List (ℚ × ℚ))) :=
  { wideEnv with pearson := fun _ => (.fin (7 / 10), 0), clusters := 5 }

theorem keep_complete : CompleteTrace keepEnv (allLate false) (exTrace false) where
  stages _ _ _ := rfl
  trace _ := rfl
  laws _ := dots_laws
  order _ _ := List.reverse_perm _

example : Complete keepEnv (allLate false) ∧ ∃ d x y r p,
    Succeeds id (fun _ => false) id lateNum keepEnv wideTable d ∧ Reported d x y r p [0, 1, 2, 3] ∧
      r.rows.length = 4 := by
  obtain ⟨d, h1, h2⟩ := cleanRun_succeeds (env := keepEnv) (t := wideTable) (by decide +kernel)
  have h : ((cleanRun keepEnv wideTable).toOption.bind reportOf).any (fun q => q.2.2.2.2 = [0, 1, 2, 3] ∧
      q.2.2.1.rows.length = 4) = true := by decide +kernel
  obtain ⟨⟨x, y, r, p, s⟩, hq, hp⟩ := Option.any_eq_true _ _ |>.1 h
  obtain ⟨e1, e2⟩ := of_decide_eq_true hp
  dsimp only at e1 e2
  subst e1
  rw [h1] at hq
  exact ⟨keep_complete.complete, d, x, y, r, p, h2, reportOf_some hq, e2⟩

/-- **C206** is false: SIFTED drops the third of four features, `rho` keeps its row. -/
theorem C206_refuted : ∃ (env : Env Nat (Kept (List (ℚ × ℚ)))) (t : Table Nat)
    (d : Dict Name (Val Nat (Kept (List (ℚ × ℚ))))), Complete env (allLate false) ∧
    Succeeds id (fun _ => false) id lateNum env t d ∧ ¬ CorrelationsLinedUp env d := by
  obtain ⟨d, x, y, r, p, h1, h2, hx, hy, -, -, h3, -⟩ := wide_report
  refine ⟨wideEnv, wideTable, d, wide_complete.complete, h1, fun h => ?_⟩
  have := (h _ _ _ _ _ h2).1
  rw [h3, hx] at this
  cases this

/-- And the row at the position of the third label is that of the feature that was dropped: 0.2 instead of 0.7. -/
theorem C206_row_refuted : ∃ (env : Env Nat (Kept (List (ℚ × ℚ)))) (t : Table Nat)
    (d : Dict Name (Val Nat (Kept (List (ℚ × ℚ))))) (x y r p : Mat Num) (sel : List Nat),
    Complete env (allLate false) ∧ Succeeds id (fun _ => false) id lateNum env t d ∧ Reported d x y r p sel ∧
    ∃ j < x.ncols, ¬ Correlates env.pearson x.rows y.rows y.ncols r.rows p.rows j j := by
  obtain ⟨d, x, y, r, p, h1, h2, hx, hy, -, -, h3, h4⟩ := wide_report
  refine ⟨wideEnv, wideTable, d, x, y, r, p, _, wide_complete.complete, h1, h2, 2, by omega, fun h => ?_⟩
  obtain ⟨c, q, e1, -, row, e3, e4⟩ := h 0 (by omega)
  rw [h4] at e1
  cases e1
  rw [h3] at e3
  cases e3
  revert e4
  decide +kernel

/-! ### C207 -/

/-- The contracts of the libraries that cluster the features: a label for each of them, and a solution with as many
entries as there are clusters. -/
structure Clusters (env : Env V W) : Prop where
  labels : ∀ x y yb l k, ((env.lib x y yb).kmeans l k).length = l.length
  genes : ∀ x y yb f best, (env.lib x y yb).search f = .ok best → best.length = env.clusters

/-- The property: the array of clusters has a row for each of the features in the Model. -/
def ClustersNamed (d : Dict Name (Val V W)) : Prop :=
  ∀ clust feats, d .clust = some (.verdicts clust) → d .feat_labels = some (.names feats) →
    clust.length = feats.length

/-- **C207 (part).** If features are clustered, the rows of `clust` stand for features that include the selected ones;
no row is in two clusters, and each cluster has exactly one selected feature.
Missing: which row stands for which feature is not part of the Model, and there are always more rows than
features (`C207_rows_partial`, `C207_refuted`). -/
theorem C207_partial {clust : List (List Bool)} {sel : List Nat} (hc : Complete env le) (hl : Clusters env)
    (h : Succeeds lower numeric str num env t d) (h1 : d .clust = some (.verdicts clust))
    (h2 : d .selvars = some (.counts sel)) : ∃ pre, Represented clust env.clusters pre sel :=
  (represented hc.tuples hl.labels hl.genes h h1 h2).imp fun _ h => h.1

/-- **C207, the number of rows.** Whenever features are clustered, `clust` has more rows than the Model has
features. -/
theorem C207_rows_partial {clust : List (List Bool)} {feats : List String} (hc : Complete env le) (hl : Clusters env)
    (h : Succeeds lower numeric str num env t d) (h1 : d .clust = some (.verdicts clust))
    (h2 : d .feat_labels = some (.names feats)) : feats.length ≤ env.clusters ∧ env.clusters < clust.length := by
  obtain ⟨sel, h3⟩ := selvars_there hc.tuples h
  obtain ⟨pre, h5, h6, h7⟩ := represented hc.tuples hl.labels hl.genes h h1 h3
  exact ⟨h7 _ h2, h6⟩

/-- Four features in three clusters. -/
def clusterEnv : Env Nat (Kept (List (ℚ × ℚ))) :=
  { wideEnv with
    pearson := fun _ => (.fin (7 / 10), 0)
    clusters := 3
    lib := fun _ _ _ => { wideEnv.lib ⟨0, []⟩ ⟨0, []⟩ [] with
      silhouette := fun _ c => c
      kmeans := fun l k => (List.range l.length).map fun i => (i - 1) % k
      search := fun _ => .ok [0, 0, 0] } }

theorem cluster_complete : CompleteTrace clusterEnv (allLate false) (exTrace false) where
  stages _ _ _ := rfl
  trace _ := rfl
  laws _ := dots_laws
  order _ _ := List.reverse_perm _

theorem cluster_contracts : Clusters clusterEnv where
  labels x y yb l k := by simp [clusterEnv]
  genes x y yb f best h := by cases h; rfl

/-- The clusters and the features in an output. -/
def clustersOf {V W : Type} (d : Dict Name (Val V W)) : Option (List (List Bool) × List Nat × List String) :=
  match d .clust, d .selvars, d .feat_labels with
  | some (.verdicts c), some (.counts s), some (.names l) => some (c, s, l)
  | _, _, _ => none

theorem cluster_run : ∃ d, Succeeds id (fun _ => false) id lateNum clusterEnv wideTable d ∧
    d .clust = some (.verdicts [[true, false, false], [true, false, false], [false, true, false],
      [false, false, true]]) ∧
    d .selvars = some (.counts [0, 2, 3]) ∧
    d .feat_labels = some (.names ["feature_a", "feature_c", "feature_d"]) := by
  obtain ⟨d, h1, h2⟩ := cleanRun_succeeds (env := clusterEnv) (t := wideTable) (by decide +kernel)
  have h : (cleanRun clusterEnv wideTable).toOption.bind clustersOf = some ([[true, false, false],
      [true, false, false], [false, true, false], [false, false, true]], [0, 2, 3],
      ["feature_a", "feature_c", "feature_d"]) := by decide +kernel
  rw [h1] at h
  simp only [Except.toOption, Option.bind_some, clustersOf] at h
  split at h
  · rename_i l s m e1 e2 e3
    simp only [Option.some.injEq, Prod.mk.injEq] at h
    obtain ⟨rfl, rfl, rfl⟩ := h
    exact ⟨d, h2, e1, e2, e3⟩
  · cases h

/-- **C207** is false: the second of four clustered features is dropped, and `clust` has four rows for three
labels. -/
theorem C207_refuted : ∃ (env : Env Nat (Kept (List (ℚ × ℚ)))) (t : Table Nat)
    (d : Dict Name (Val Nat (Kept (List (ℚ × ℚ))))), Complete env (allLate false) ∧ Clusters env ∧
    Succeeds id (fun _ => false) id lateNum env t d ∧ ¬ ClustersNamed d := by
  obtain ⟨d, h1, h2, h3, h4⟩ := cluster_run
  exact ⟨clusterEnv, wideTable, d, cluster_complete.complete, cluster_contracts, h1, fun h => by
    cases h _ _ h2 h4⟩

example : Complete clusterEnv (allLate false) ∧ Clusters clusterEnv ∧ ∃ d clust,
    Succeeds id (fun _ => false) id lateNum clusterEnv wideTable d ∧ d .clust = some (.verdicts clust) ∧
    d .selvars = some (.counts [0, 2, 3]) := by
  obtain ⟨d, h1, h2, h3, h4⟩ := cluster_run
  exact ⟨cluster_complete.complete, cluster_contracts, d, _, h1, h2, h3⟩

end Verif.EndToEnd
