import Verif.EndToEnd.SpecGrounds
import Verif.EndToEnd.RecomputeLemmas
import Verif.Sifted.Props
/-! What the Model says about the selection of features. -/
set_option autoImplicit false
set_option linter.unusedSectionVars false

namespace Verif.Sifted

/-- When SIFTED returns clusters, they are those of the features selected by their correlations, and the features
it returns are decoded from a solution of the search. -/
theorem sifted_clust {α : Type} {lib : Lib} {rho : List (List Num)} {thr : Num} {k nalgos : Nat}
    {x : List α} {labels : List String} {dense : Bool} {out : Out α} {cl : List (List Bool)}
    (h : sifted lib rho thr k nalgos x labels dense = .ok out) (hc : out.clust = some cl) :
    ∃ f best, lib.search f = .ok best ∧
      k < (selectByPerformance lib.argsort rho thr x.length nalgos).length ∧
      cl = clustOf (lib.kmeans (selectByPerformance lib.argsort rho thr x.length nalgos) k) k ∧
      decode (lib.kmeans (selectByPerformance lib.argsort rho thr x.length nalgos) k) k
        (selectByPerformance lib.argsort rho thr x.length nalgos) best = .ok out.selvars ∧
      out.featLabels = pick labels out.selvars := by
  unfold sifted at h
  simp only at h
  split at h
  · cases h
  split at h
  · cases h; cases hc
  split at h
  · cases h
  split at h
  · cases h; cases hc
  rename_i hlt
  split at h
  · cases h
  split at h
  · cases h
  rename_i best hb
  split at h
  · cases h
  rename_i sel hd
  split at h
  · cases h
  cases h
  simp only [Option.some.injEq] at hc
  exact ⟨_, best, hb, by omega, hc.symm, hd, rfl⟩

theorem clustOf_at {labels : List Nat} {k f c : Nat} :
    (∃ r, (clustOf labels k)[f]? = some r ∧ r[c]? = some true) ↔ labels[f]? = some c ∧ c < k := by
  unfold clustOf
  constructor
  · rintro ⟨r, h1, h2⟩
    rw [List.getElem?_map] at h1
    cases hf : labels[f]? with
    | none => rw [hf] at h1; cases h1
    | some l =>
      rw [hf] at h1
      simp only [Option.map_some, Option.some.injEq] at h1
      subst h1
      have hc := (List.getElem?_eq_some_iff.1 h2).1
      simp only [List.length_map, List.length_range] at hc
      rw [List.getElem?_map, List.getElem?_range hc] at h2
      simp only [Option.map_some, Option.some.injEq, decide_eq_true_eq] at h2
      exact ⟨by rw [h2], hc⟩
  · rintro ⟨h1, h2⟩
    refine ⟨(List.range k).map fun c' => decide (c = c'), by rw [List.getElem?_map, h1]; rfl, ?_⟩
    rw [List.getElem?_map, List.getElem?_range h2]
    simp

end Verif.Sifted

namespace Verif.EndToEnd

open Verif (Num)
open Verif.Pipeline (Stg Name inputs outputs)
open Verif.Metadata (Table Squeezed fromDataFrame)
open Verif.Preprocessing (Mat)
open Verif.Runner (Dict override)

variable {V W : Type} {lower : String → String} {numeric : Squeezed V → Bool} {str : V → V}
  {num : V → Num} {env : Env V W} {t : Table V} {d : Dict Name (Val V W)}

/-- The values that SIFTED returns are those of the output. -/
theorem sifted_last (htup : ∀ k s vs out, env.rest k s vs = .ok out → out.map Prod.fst = (outputs s).map Prod.fst)
    (h : Succeeds lower numeric str num env t d) :
    ∃ x y yb feat b c o, correlations env x y yb = .ok c ∧
      Sifted.sifted (env.lib x y yb) ((c.map (·.rho)).getD []) env.thr env.clusters y.ncols
        (Prelim.columns x.ncols x.rows) feat b = .ok o ∧
      d .x = some (.table ⟨o.x.length, rowsOf x.rows.length o.x⟩) ∧ d .y = some (.table y) ∧
      d .feat_labels = some (.names o.featLabels) ∧ d .selvars = some (.counts o.selvars) ∧
      d .idx = some (.counts o.idx) ∧ ∀ q ∈ grounds env y.ncols c o, d q.1 = some q.2 := by
  obtain ⟨vs1, vs2, vs3, o1, o2, o3, r1, r2, r3, i1, i2, i3, hd⟩ := succeeds_stages htup h
  obtain ⟨x2, y2, yBin2, xRaw2, yRaw2, beta2, ng2, yb2, p2, inst2, feat2, s2, z3, z4, present, z5, corr, sel,
    rfl, hcorr, hsel, rfl⟩ := sifted_ok r3
  refine ⟨x2, y2, yBin2, feat2, _, corr, sel, hcorr, hsel, ?_, ?_, ?_, ?_, ?_, ?_⟩
  · exact (hd _ (by decide)).trans rfl
  · exact (hd _ (by decide)).trans rfl
  · exact (hd _ (by decide)).trans rfl
  · exact (hd _ (by decide)).trans rfl
  · exact (hd _ (by decide)).trans rfl
  · intro q hq
    simp only [grounds, List.mem_cons, List.not_mem_nil, or_false] at hq
    rcases hq with rfl | rfl | rfl | rfl <;> dsimp only <;> exact (hd _ (by decide)).trans rfl

theorem columns_valid (x y : Mat Num) (j a : Nat) :
    Sifted.validPairs (x.rows.map fun r => r.getD j .nan) (y.rows.map fun r => r.getD a .nan) =
      paired x.rows y.rows j a := by
  unfold Sifted.validPairs paired
  rw [List.zip_map, List.filter_map]
  generalize x.rows.zip y.rows = l
  induction l with
  | nil => rfl
  | cons q l ih =>
    rw [List.filterMap_cons, ← ih]
    obtain ⟨r, s⟩ := q
    cases h1 : r[j]? with
    | none => simp [List.getD, h1, Num.isNan, Function.comp_def]
    | some u =>
      cases h2 : s[a]? with
      | none => simp [List.getD, h2, Num.isNan, Function.comp_def]
      | some v =>
        cases hu : u.isNan <;> cases hv : v.isNan <;>
          simp [List.getD, h1, h2, hu, hv, Function.comp_def]

theorem rowsOf_column {n : Nat} {cols : List (List Num)} {j : Nat} {c : List Num} (hj : cols[j]? = some c)
    (hc : c.length = n) : (rowsOf n cols).map (fun r => r.getD j .nan) = c := by
  unfold rowsOf
  rw [List.map_map]
  apply List.ext_getElem?
  intro k
  by_cases hk : k < n
  · have hk' : k < c.length := by omega
    rw [List.getElem?_map, List.getElem?_range hk]
    simp only [Option.map_some, Function.comp_apply, List.getD, List.getElem?_map, hj, Option.getD_some]
    rw [List.getElem?_eq_getElem hk']
    rfl
  · rw [List.getElem?_eq_none (by simp; omega), List.getElem?_eq_none (by omega)]

/-- What the correlations are. -/
theorem correlations_at {x y : Mat Num} {yb : List (List Bool)} {c : Sifted.Performance}
    (h : correlations env x y yb = .ok (some c)) :
    c.rho.length = x.ncols ∧ c.pval.length = x.ncols ∧
    ∀ i < x.ncols, ∀ a < y.ncols, ∃ r p : Num, related env.pearson (paired x.rows y.rows i a) = (r, p) ∧
      At c.pval i a p ∧ At c.rho i a (if r = .nan ∨ Num.lt (.fin (5 / 100)) p = true then 0 else r) := by
  unfold correlations at h
  split at h
  · cases h
  unfold Sifted.selectFeatures at h
  split at h
  · cases h
  rename_i c' hc
  cases h
  split at hc
  · cases hc
  rename_i corr hcorr
  cases hc
  unfold Sifted.correlation at hcorr
  split at hcorr
  · cases hcorr
  simp only [Except.ok.injEq] at hcorr
  subst hcorr
  refine ⟨by simp [Sifted.significant, Prelim.columns], by simp [Prelim.columns], fun i hi a ha => ?_⟩
  refine ⟨(related env.pearson (paired x.rows y.rows i a)).1, (related env.pearson (paired x.rows y.rows i a)).2,
    rfl, ?_, ?_⟩
  · refine ⟨_, by simp only [Prelim.columns, List.getElem?_map, List.getElem?_range hi, Option.map_some]; rfl, ?_⟩
    simp only [List.getElem?_map, List.getElem?_range ha, Option.map_some, columns_valid]
    cases paired x.rows y.rows i a <;> rfl
  · refine ⟨_, by simp only [Sifted.significant, Prelim.columns, List.getElem?_map, List.getElem?_range hi,
      Option.map_some]; rfl, ?_⟩
    simp only [List.getElem?_map, List.getElem?_range ha, Option.map_some, columns_valid,
      Option.some.injEq]
    have e : (if (paired x.rows y.rows i a).isEmpty = true then ((.nan, .nan) : Num × Num)
        else env.pearson (paired x.rows y.rows i a)) = related env.pearson (paired x.rows y.rows i a) := by
      cases paired x.rows y.rows i a <;> rfl
    rw [e]
    have e2 : (1 / 20 : ℚ) = 5 / 100 := by norm_num
    rw [e2]
    by_cases hn : (related env.pearson (paired x.rows y.rows i a)).1 = .nan
    · simp [hn, Num.isNan]
    · have : (related env.pearson (paired x.rows y.rows i a)).1.isNan = false := by
        cases hq : (related env.pearson (paired x.rows y.rows i a)).1 <;> simp_all [Num.isNan]
      simp [hn, this]

/-- The columns of the selected features are those of the features SIFTED gets. -/
theorem paired_selected {x : Mat Num} {cols : List (List Num)} {i j : Nat} {y : List (List Num)} {a : Nat}
    (hj : cols[j]? = (Prelim.columns x.ncols x.rows)[i]?) (hi : i < x.ncols) :
    paired (rowsOf x.rows.length cols) y j a = paired x.rows y i a := by
  have hc : (Prelim.columns x.ncols x.rows)[i]? = some (x.rows.map fun r => r.getD i .nan) := by
    simp only [Prelim.columns, List.getElem?_map, List.getElem?_range hi, Option.map_some]
  rw [hc] at hj
  rw [← columns_valid ⟨cols.length, rowsOf x.rows.length cols⟩ ⟨0, y⟩, ← columns_valid x ⟨0, y⟩,
    rowsOf_column hj (by simp)]

theorem reported {x y rho pval : Mat Num} {sel : List Nat}
    (htup : ∀ k s vs out, env.rest k s vs = .ok out → out.map Prod.fst = (outputs s).map Prod.fst)
    (h : Succeeds lower numeric str num env t d) (hr : Reported d x y rho pval sel) :
    rho.rows.length = pval.rows.length ∧ rho.ncols = y.ncols ∧ pval.ncols = y.ncols ∧
    ∀ j i : Nat, sel[j]? = some i → Correlates env.pearson x.rows y.rows y.ncols rho.rows pval.rows i j := by
  obtain ⟨x', y', yb, feat, b, c, o, hcorr, hsel, ex, ey, ef, es, ei, hg⟩ := sifted_last htup h
  have e1 := hr.x
  rw [ex] at e1
  have e2 := hr.y
  rw [ey] at e2
  have e3 := hr.selvars
  rw [es] at e3
  have e4 := hr.rho
  rw [hg _ (List.mem_cons_self ..)] at e4
  have e5 := hr.pval
  rw [hg _ (List.mem_cons_of_mem _ (List.mem_cons_self ..))] at e5
  simp only [Option.some.injEq, Val.table.injEq, Val.counts.injEq] at e1 e2 e3
  subst e1 e2 e3
  cases c with
  | none => cases e4
  | some c =>
    simp only [Option.map_some, Option.getD_some, Option.some.injEq, Val.table.injEq] at e4 e5
    subst e4 e5
    obtain ⟨g1, g2, g3⟩ := correlations_at hcorr
    refine ⟨g1.trans g2.symm, rfl, rfl, fun j i hj a ha => ?_⟩
    obtain ⟨k1, k2, k3⟩ := Sifted.sifted_columns hsel
    have hi : i < x'.ncols := by
      have := k1 i (List.mem_of_getElem? hj)
      simpa [Prelim.columns] using this
    rw [paired_selected (k3 j i hj) hi]
    exact g3 i hi a ha

theorem eq_range {n : Nat} {l : List Nat} (hs : l.Pairwise (· < ·)) (hr : ∀ i ∈ l, i < n) (hl : l.length = n) :
    l = List.range n := by
  have hp : l.Perm (List.range n) := by
    apply List.Subperm.perm_of_length_le
    · exact List.subperm_of_subset (hs.imp Nat.ne_of_lt) fun i hi => List.mem_range.2 (hr i hi)
    · simp [hl]
  exact hp.eq_of_pairwise (le := (· < ·)) (fun a b _ _ h1 h2 => absurd h1 (Nat.lt_asymm h2)) hs List.pairwise_lt_range

theorem reported_range {x y rho pval : Mat Num} {sel : List Nat}
    (htup : ∀ k s vs out, env.rest k s vs = .ok out → out.map Prod.fst = (outputs s).map Prod.fst)
    (h : Succeeds lower numeric str num env t d) (hr : Reported d x y rho pval sel)
    (hall : sel.length = rho.rows.length) : sel = List.range sel.length ∧ x.ncols = sel.length := by
  obtain ⟨x', y', yb, feat, b, c, o, hcorr, hsel, ex, ey, ef, es, ei, hg⟩ := sifted_last htup h
  have e1 := hr.x
  rw [ex] at e1
  have e3 := hr.selvars
  rw [es] at e3
  have e4 := hr.rho
  rw [hg _ (List.mem_cons_self ..)] at e4
  simp only [Option.some.injEq, Val.table.injEq, Val.counts.injEq] at e1 e3
  subst e1 e3
  cases c with
  | none => cases e4
  | some c =>
    simp only [Option.map_some, Option.getD_some, Option.some.injEq, Val.table.injEq] at e4
    subst e4
    obtain ⟨g1, g2, g3⟩ := correlations_at hcorr
    obtain ⟨k1, k2, k3⟩ := Sifted.sifted_columns hsel
    refine ⟨eq_range (Sifted.sifted_increasing hsel) ?_ rfl, k2⟩
    intro i hi
    have := k1 i hi
    simp only [Prelim.columns, List.length_map, List.length_range] at this
    dsimp only at hall
    omega

theorem selvars_there
    (htup : ∀ k s vs out, env.rest k s vs = .ok out → out.map Prod.fst = (outputs s).map Prod.fst)
    (h : Succeeds lower numeric str num env t d) : ∃ sel, d .selvars = some (.counts sel) := by
  obtain ⟨x, y, yb, feat, b, c, o, hcorr, hsel, ex, ey, ef, es, ei, hg⟩ := sifted_last htup h
  exact ⟨_, es⟩

/-- One feature of each cluster is chosen. -/
theorem clusters_represented {labels pre sel : List Nat} {best : List Int} {k : Nat} (hlen : labels.length = pre.length)
    (hsort : pre.Pairwise (· < ·)) (hb : best.length = k) (h : Sifted.decode labels k pre best = .ok sel) :
    Represented (Sifted.clustOf labels k) k pre sel := by
  obtain ⟨g1, g2, g3⟩ := Sifted.C73_one_per_cluster hlen hsort hb h
  have hinj : ∀ i j f : Nat, pre[i]? = some f → pre[j]? = some f → i = j := by
    intro i j f hi hj
    exact (List.getElem?_inj (List.getElem?_eq_some_iff.1 hi).1 (hsort.imp Nat.ne_of_lt)).1 (hi.trans hj.symm)
  refine ⟨hsort, by simp [Sifted.clustOf, hlen], ?_, ?_, g2, g1, ?_⟩
  · intro r hr
    simp only [Sifted.clustOf, List.mem_map] at hr
    obtain ⟨l, -, rfl⟩ := hr
    simp
  · intro f c c' h1 h2
    have h1 := (Sifted.clustOf_at.1 h1).1
    have h2 := (Sifted.clustOf_at.1 h2).1
    exact Option.some.inj (h1.symm.trans h2)
  · intro c hc
    obtain ⟨i, hi, ⟨f, hf1, hf2⟩, hu⟩ := g3 c hc
    refine ⟨f, i, Sifted.clustOf_at.2 ⟨hf2, hc⟩, hf1, hi, fun f' i' h1 h2 h3 => ?_⟩
    have := hu i' h3 ⟨f', h2, (Sifted.clustOf_at.1 h1).1⟩
    subst this
    exact hinj _ _ _ h2 hf1

/-- The array of clusters in the output. -/
theorem represented {clust : List (List Bool)} {sel : List Nat}
    (htup : ∀ k s vs out, env.rest k s vs = .ok out → out.map Prod.fst = (outputs s).map Prod.fst)
    (hk : ∀ x y yb l k, ((env.lib x y yb).kmeans l k).length = l.length)
    (hs : ∀ x y yb f best, (env.lib x y yb).search f = .ok best → best.length = env.clusters)
    (h : Succeeds lower numeric str num env t d) (hc : d .clust = some (.verdicts clust))
    (hv : d .selvars = some (.counts sel)) : ∃ pre, Represented clust env.clusters pre sel ∧
      env.clusters < clust.length ∧
      ∀ feats, d .feat_labels = some (.names feats) → feats.length ≤ env.clusters := by
  obtain ⟨x, y, yb, feat, b, c, o, hcorr, hsel, ex, ey, ef, es, ei, hg⟩ := sifted_last htup h
  rw [es] at hv
  simp only [Option.some.injEq, Val.counts.injEq] at hv
  subst hv
  rw [hg (.clust, (o.clust.map Val.verdicts).getD (.other (env.fill .clust))) (by simp [grounds])] at hc
  cases ho : o.clust with
  | none => rw [ho] at hc; cases hc
  | some cl =>
    rw [ho] at hc
    simp only [Option.map_some, Option.getD_some, Option.some.injEq, Val.verdicts.injEq] at hc
    subst hc
    obtain ⟨f, best, h1, hlt, rfl, h3, h4⟩ := Sifted.sifted_clust hsel ho
    have hsort := Sifted.selectByPerformance_sorted (env.lib x y yb).argsort ((c.map (·.rho)).getD []) env.thr
      (Prelim.columns x.ncols x.rows).length y.ncols
    generalize hpre : Sifted.selectByPerformance (env.lib x y yb).argsort ((c.map (·.rho)).getD []) env.thr
      (Prelim.columns x.ncols x.rows).length y.ncols = pre at h3 hsort hlt ⊢
    have hlen := hk x y yb pre env.clusters
    generalize (env.lib x y yb).kmeans pre env.clusters = labels at h3 hlen ⊢
    have rep := clusters_represented hlen hsort (hs _ _ _ _ _ h1) h3
    refine ⟨pre, rep, by simpa [Sifted.clustOf, hlen] using hlt, ?_⟩
    intro feats hf
    rw [ef] at hf
    cases hf
    rw [h4, ← rep.number]
    exact List.length_filterMap_le _ _

end Verif.EndToEnd
