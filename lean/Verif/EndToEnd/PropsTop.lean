import Verif.EndToEnd.PropsGrounds
import Verif.EndToEnd.SpecTop
/-!
# C220: the features that correlate most with an algorithm
-/
set_option autoImplicit false
set_option linter.unusedSectionVars false

namespace Verif.EndToEnd

open Verif (Num)
open Verif.Pipeline (Stg Name runner defaultStages buildDefault outputs)
open Verif.Metadata (Table Squeezed Begins fromDataFrame)
open Verif.Preprocessing (Mat)
open Verif.Runner (Dict)

variable {V W : Type} {lower : String → String} {numeric : Squeezed V → Bool} {str : V → V}
  {num : V → Num} {env : Env V W} {le : Nat → Late V W} {t : Table V} {d : Dict Name (Val V W)}

/-- The contracts of the libraries that compute and sort the correlations: a coefficient is a number or NaN, and
`np.argsort` sorts. -/
structure Ranks (env : Env V W) : Prop where
  number : ∀ l, (env.pearson l).1 = .nan ∨ ∃ q, (env.pearson l).1 = .fin q
  sorts : ∀ x y yb, Sifted.Sorts (env.lib x y yb).argsort

/-- The correlations in the output are a matrix of numbers. -/
theorem rho_matrix (hr : Ranks env) {x y : Mat Num} {yb : List (List Bool)} {c : Sifted.Performance}
    (h : correlations env x y yb = .ok (some c)) :
    ∃ f, Sifted.Matrix c.rho x.ncols y.ncols f := by
  obtain ⟨g1, -, g3⟩ := correlations_at h
  have num : ∀ i < x.ncols, ∀ a < y.ncols, ∃ q, At c.rho i a (.fin q) := by
    intro i hi a ha
    obtain ⟨r, p, e, -, hat⟩ := g3 i hi a ha
    split at hat
    · exact ⟨0, hat⟩
    · rename_i hne
      push Not at hne
      cases hp : paired x.rows y.rows i a with
      | nil =>
        rw [hp] at e
        cases e
        exact absurd rfl hne.1
      | cons q l =>
        rw [hp] at e
        have e' : (env.pearson (q :: l)).1 = r := by
          have : env.pearson (q :: l) = (r, p) := e
          rw [this]
        rcases hr.number (q :: l) with hn | ⟨v, hv⟩
        · exact absurd (e'.symm.trans hn) hne.1
        · rw [hv] at e'
          subst e'
          exact ⟨v, hat⟩
  have len : ∀ r ∈ c.rho, r.length = y.ncols := by
    unfold correlations at h
    split at h
    · cases h
    unfold Sifted.selectFeatures at h
    split at h
    · cases h
    rename_i c' hc
    cases h
    split at hc
    · cases hc
    rename_i corr hcorr
    cases hc
    unfold Sifted.correlation at hcorr
    split at hcorr
    · cases hcorr
    simp only [Except.ok.injEq] at hcorr
    subst hcorr
    intro r hr
    simp only [Sifted.significant, Prelim.columns, List.mem_map] at hr
    obtain ⟨_, ⟨_, _, rfl⟩, rfl⟩ := hr
    simp
  choose! f hf using num
  refine ⟨f, g1, fun i hi => ?_⟩
  have hi' : i < c.rho.length := by omega
  refine ⟨c.rho[i], List.getElem?_eq_getElem hi', len _ (List.getElem_mem hi'), fun a ha => ?_⟩
  obtain ⟨r, h1, h2⟩ := hf i hi a ha
  rw [List.getElem?_eq_getElem hi'] at h1
  cases h1
  exact h2

theorem top_of {rho : List (List Num)} {n m : Nat} {f : Nat → Nat → ℚ} (hm : Sifted.Matrix rho n m f) {g a : Nat}
    (hg : g < n) (ha : a < m) (h : ∀ i < n, |f i a| ≤ |f g a|) : Top rho a g := by
  obtain ⟨r, hr, -, hv⟩ := hm.2 g hg
  refine ⟨f g a, ⟨r, hr, hv a ha⟩, ?_⟩
  rintro i v' ⟨r', hr', hv'⟩
  have hi : i < n := by
    rw [← hm.1]
    exact (List.getElem?_eq_some_iff.1 hr').1
  obtain ⟨r'', hr'', -, hw⟩ := hm.2 i hi
  rw [hr'] at hr''
  cases hr''
  rw [hw a ha] at hv'
  cases hv'
  exact h i hi

/-- **C220 (part).** If no features are clustered, the Model keeps for every algorithm a feature that correlates with it
at least as much as any feature, in absolute value.  Missing: with clusters this fails (`C220_refuted`,
`C220_clustered_partial`). -/
theorem C220_partial {x y rho pval : Mat Num} {sel : List Nat} (hc : Complete env le) (hk : Ranks env)
    (h : Succeeds lower numeric str num env t d) (hr : Reported d x y rho pval sel)
    (hn : ∀ clust, d .clust ≠ some (.verdicts clust)) : KeepsTop rho.rows y.ncols sel := by
  obtain ⟨x', y', yb, feat, b, c, o, hcorr, hsel, ex, ey, ef, es, ei, hg⟩ := sifted_last hc.tuples h
  have e2 := hr.y
  rw [ey] at e2
  have e3 := hr.selvars
  rw [es] at e3
  have e4 := hr.rho
  rw [hg _ (List.mem_cons_self ..)] at e4
  simp only [Option.some.injEq, Val.table.injEq, Val.counts.injEq] at e2 e3
  subst e2 e3
  have hcl : o.clust = none := by
    cases ho : o.clust with
    | none => rfl
    | some cl =>
      exact absurd ((hg (.clust, (o.clust.map Val.verdicts).getD (.other (env.fill .clust)))
        (by simp [grounds])).trans (by rw [ho]; rfl)) (hn cl)
  cases c with
  | none => cases e4
  | some c =>
    simp only [Option.map_some, Option.getD_some, Option.some.injEq, Val.table.injEq] at e4
    subst e4
    obtain ⟨f, hf⟩ := rho_matrix hk hcorr
    have hx : 3 < x'.ncols := by
      unfold correlations at hcorr
      split at hcorr
      · cases hcorr
      · omega
    have hcl' : (Prelim.columns x'.ncols x'.rows).length = x'.ncols := by simp [Prelim.columns]
    have hs : o.selvars = Sifted.selectByPerformance (env.lib x' y' yb).argsort c.rho env.thr x'.ncols y'.ncols := by
      unfold Sifted.sifted at hsel
      simp only [hcl', Option.map_some, Option.getD_some] at hsel
      rw [if_neg (by omega), if_neg (by omega)] at hsel
      split at hsel
      · cases hsel
      split at hsel
      · cases hsel; rfl
      split at hsel
      · cases hsel
      split at hsel
      · cases hsel
      split at hsel
      · cases hsel
      split at hsel
      · cases hsel
      cases hsel
      cases hcl
    intro a ha
    obtain ⟨g, hg1, hg2⟩ := Sifted.C70_top_partial (hk.sorts x' y' yb) hf (by omega) env.thr ha
    refine ⟨g, by rw [hs]; exact hg1, top_of hf (Sifted.C70_exact_partial.1 hg1).1 ha hg2⟩

/-- **C220 (part).** If features are clustered, the Model keeps for every algorithm at least one feature of the cluster of a
feature that correlates with the algorithm at least as much as any feature. -/
theorem C220_clustered_partial {x y rho pval : Mat Num} {sel : List Nat} {clust : List (List Bool)}
    (hc : Complete env le) (hk : Ranks env) (hl : Clusters env)
    (hlt : ∀ x y yb l, ∀ c ∈ (env.lib x y yb).kmeans l env.clusters, c < env.clusters)
    (h : Succeeds lower numeric str num env t d) (hr : Reported d x y rho pval sel)
    (h1 : d .clust = some (.verdicts clust)) :
    ∃ pre, Represented clust env.clusters pre sel ∧ TopRepresented rho.rows y.ncols clust pre sel := by
  obtain ⟨x', y', yb, feat, b, c, o, hcorr, hsel, ex, ey, ef, es, ei, hg⟩ := sifted_last hc.tuples h
  have e2 := hr.y
  rw [ey] at e2
  have e3 := hr.selvars
  rw [es] at e3
  have e4 := hr.rho
  rw [hg _ (List.mem_cons_self ..)] at e4
  simp only [Option.some.injEq, Val.table.injEq, Val.counts.injEq] at e2 e3
  subst e2 e3
  rw [hg (.clust, (o.clust.map Val.verdicts).getD (.other (env.fill .clust))) (by simp [grounds])] at h1
  cases c with
  | none => cases e4
  | some c =>
    simp only [Option.map_some, Option.getD_some, Option.some.injEq, Val.table.injEq] at e4
    subst e4
    obtain ⟨f, hf⟩ := rho_matrix hk hcorr
    have hx : 3 < x'.ncols := by
      unfold correlations at hcorr
      split at hcorr
      · cases hcorr
      · omega
    have hcl' : (Prelim.columns x'.ncols x'.rows).length = x'.ncols := by simp [Prelim.columns]
    cases ho : o.clust with
    | none => rw [ho] at h1; cases h1
    | some cl =>
      rw [ho] at h1
      simp only [Option.map_some, Option.getD_some, Option.some.injEq, Val.verdicts.injEq] at h1
      subst h1
      obtain ⟨fn, best, k1, -, rfl, k3, -⟩ := Sifted.sifted_clust hsel ho
      simp only [hcl', Option.map_some, Option.getD_some] at k3 ⊢
      have hsort := Sifted.selectByPerformance_sorted (env.lib x' y' yb).argsort c.rho env.thr x'.ncols y'.ncols
      have htop : ∀ a < y'.ncols, ∃ g ∈ Sifted.selectByPerformance (env.lib x' y' yb).argsort c.rho env.thr x'.ncols
          y'.ncols, Top c.rho a g := by
        intro a ha
        obtain ⟨g, hg1, hg2⟩ := Sifted.C70_top_partial (hk.sorts x' y' yb) hf (by omega) env.thr ha
        exact ⟨g, hg1, top_of hf (Sifted.C70_exact_partial.1 hg1).1 ha hg2⟩
      generalize hpre : Sifted.selectByPerformance (env.lib x' y' yb).argsort c.rho env.thr x'.ncols y'.ncols = pre
        at k3 hsort htop ⊢
      have hlen := hl.labels x' y' yb pre env.clusters
      have hlt' := hlt x' y' yb pre
      generalize (env.lib x' y' yb).kmeans pre env.clusters = labels at k3 hlen hlt' ⊢
      have rep := clusters_represented hlen hsort (hl.genes _ _ _ _ _ k1) k3
      refine ⟨pre, rep, fun a ha => ?_⟩
      obtain ⟨g, hg1, hg2⟩ := htop a ha
      obtain ⟨q, hq⟩ := List.mem_iff_getElem?.1 hg1
      have hql : q < labels.length := by
        rw [hlen]
        exact (List.getElem?_eq_some_iff.1 hq).1
      have hlab := List.getElem?_eq_getElem hql
      obtain ⟨f', i', a1, a2, a3, -⟩ := rep.one _ (hlt' _ (List.mem_of_getElem? hlab))
      exact ⟨q, g, _, f', i', hq, hg2, Sifted.clustOf_at.2 ⟨hlab, hlt' _ (List.mem_of_getElem? hlab)⟩, a1, a2, a3⟩

theorem wide_ranks : Ranks wideEnv where
  number _ := .inr ⟨_, rfl⟩
  sorts _ _ _ := Sifted.argsortRef_sorts

example : Complete wideEnv (allLate false) ∧ Ranks wideEnv ∧ ∃ d x y r p,
    Succeeds id (fun _ => false) id lateNum wideEnv wideTable d ∧ Reported d x y r p [0, 1, 3] ∧ y.ncols = 2 ∧
    ∀ clust, d .clust ≠ some (.verdicts clust) := by
  obtain ⟨d, h1, h2⟩ := cleanRun_succeeds (env := wideEnv) (t := wideTable) (by decide +kernel)
  have h : ((cleanRun wideEnv wideTable).toOption.bind reportOf).any (fun q => q.2.2.2.2 = [0, 1, 3] ∧
      q.2.1.ncols = 2) = true := by decide +kernel
  have h' : (cleanRun wideEnv wideTable).toOption.bind clustersOf = none := by decide +kernel
  obtain ⟨⟨x, y, r, p, s⟩, hq, hp⟩ := Option.any_eq_true _ _ |>.1 h
  obtain ⟨e1, e2⟩ := of_decide_eq_true hp
  dsimp only at e1 e2
  subst e1
  rw [h1] at hq h'
  have hr := reportOf_some hq
  refine ⟨wide_complete.complete, wide_ranks, d, x, y, r, p, h2, hr, e2, fun clust hcl => ?_⟩
  obtain ⟨x', y', yb, feat, b, c, o, -, -, -, -, ef, es, -⟩ := sifted_last wide_complete.complete.tuples h2
  simp [Except.toOption, clustersOf, hcl, ef, es] at h'

/-- The second feature correlates most; it shares its cluster with the first. -/
def topEnv : Env Nat (Kept (List (ℚ × ℚ))) :=
  { clusterEnv with
    pearson := fun l => (.fin (match l.head? with
      | some (.fin 11, _) => 9 / 10
      | _ => 7 / 10), 0) }

theorem top_complete : CompleteTrace topEnv (allLate false) (exTrace false) where
  stages _ _ _ := rfl
  trace _ := rfl
  laws _ := dots_laws
  order _ _ := List.reverse_perm _

theorem top_ranks : Ranks topEnv where
  number _ := .inr ⟨_, rfl⟩
  sorts _ _ _ := Sifted.argsortRef_sorts

theorem top_contracts : Clusters topEnv where
  labels x y l k := by simp [topEnv, clusterEnv]
  genes x y yb f best h := by cases h; rfl

theorem top_run : ∃ d x y r p, Succeeds id (fun _ => false) id lateNum topEnv wideTable d ∧
    Reported d x y r p [0, 2, 3] ∧ y.ncols = 2 ∧
    r.rows = [[.fin (7 / 10), .fin (7 / 10)], [.fin (9 / 10), .fin (9 / 10)], [.fin (7 / 10), .fin (7 / 10)],
      [.fin (7 / 10), .fin (7 / 10)]] ∧
    d .clust = some (.verdicts [[true, false, false], [true, false, false], [false, true, false],
      [false, false, true]]) := by
  obtain ⟨d, h1, h2⟩ := cleanRun_succeeds (env := topEnv) (t := wideTable) (by decide +kernel)
  have h : ((cleanRun topEnv wideTable).toOption.bind reportOf).any (fun q => q.2.2.2.2 = [0, 2, 3] ∧
      q.2.1.ncols = 2 ∧ q.2.2.1.rows = [[.fin (7 / 10), .fin (7 / 10)], [.fin (9 / 10), .fin (9 / 10)],
        [.fin (7 / 10), .fin (7 / 10)], [.fin (7 / 10), .fin (7 / 10)]]) = true := by decide +kernel
  have h' : ((cleanRun topEnv wideTable).toOption.bind clustersOf).map Prod.fst = some [[true, false, false],
      [true, false, false], [false, true, false], [false, false, true]] := by decide +kernel
  obtain ⟨⟨x, y, r, p, s⟩, hq, hp⟩ := Option.any_eq_true _ _ |>.1 h
  obtain ⟨e1, e2, e3⟩ := of_decide_eq_true hp
  dsimp only at e1 e2 e3
  subst e1
  rw [h1] at hq h'
  refine ⟨d, x, y, r, p, h2, reportOf_some hq, e2, e3, ?_⟩
  simp only [Except.toOption, Option.bind_some, clustersOf] at h'
  split at h'
  · rename_i l s m k1 k2 k3
    simp only [Option.map_some, Option.some.injEq] at h'
    rw [k1, h']
  · cases h'

example : Complete topEnv (allLate false) ∧ Ranks topEnv ∧ Clusters topEnv ∧
    (∀ x y yb l, ∀ c ∈ (topEnv.lib x y yb).kmeans l 3, c < 3) ∧ ∃ d x y r p clust,
    Succeeds id (fun _ => false) id lateNum topEnv wideTable d ∧ Reported d x y r p [0, 2, 3] ∧
    d .clust = some (.verdicts clust) := by
  obtain ⟨d, x, y, r, p, h1, h2, -, -, h3⟩ := top_run
  refine ⟨top_complete.complete, top_ranks, top_contracts, fun x y yb l c hc => ?_, d, x, y, r, p, _, h1, h2, h3⟩
  simp only [topEnv, clusterEnv, List.mem_map] at hc
  obtain ⟨i, -, rfl⟩ := hc
  omega

/-- **C220** is false: the second feature correlates most with both algorithms, but the search takes the first from
their cluster. -/
theorem C220_refuted : ∃ (env : Env Nat (Kept (List (ℚ × ℚ)))) (t : Table Nat)
    (d : Dict Name (Val Nat (Kept (List (ℚ × ℚ))))) (x y rho pval : Mat Num) (sel : List Nat),
    Complete env (allLate false) ∧ Ranks env ∧ Clusters env ∧ Succeeds id (fun _ => false) id lateNum env t d ∧
    Reported d x y rho pval sel ∧ ¬ KeepsTop rho.rows y.ncols sel := by
  obtain ⟨d, x, y, r, p, h1, h2, h3, h4, -⟩ := top_run
  refine ⟨topEnv, wideTable, d, x, y, r, p, _, top_complete.complete, top_ranks, top_contracts, h1, h2, fun h => ?_⟩
  obtain ⟨i, hi, v, hv, hmax⟩ := h 0 (by omega)
  rw [h4] at hv hmax
  have h9 := hmax 1 (9 / 10) ⟨_, rfl, rfl⟩
  simp only [List.mem_cons, List.not_mem_nil, or_false] at hi
  have hv7 : v = 7 / 10 := by
    obtain ⟨row, hr, hv⟩ := hv
    rcases hi with rfl | rfl | rfl
    all_goals
      cases hr
      cases hv
      rfl
  rw [hv7] at h9
  norm_num [abs_of_pos] at h9

end Verif.EndToEnd
