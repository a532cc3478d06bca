import Verif.Export.Graphs
import Verif.Export.Lemmas
/-!
# Lemmas about the plots
-/
set_option autoImplicit false
set_option linter.unusedSectionVars false

namespace Verif.Export

/-! ### Names of the files -/

/-- The beginnings of the names that contain a label. -/
def prefixes : List String :=
  ["distribution_feature_", "distribution_performance_global_normalized_",
   "distribution_performance_individual_normalized_", "binary_performance_", "binary_svm_",
   "footprint_"]

/-- The names without a label. -/
def plainNames (sources : Bool) : List String :=
  ["distribution_number_good_algos.png", "distribution_portfolio.png",
   "distribution_svm_portfolio.png", "distribution_beta_score.png"] ++
  (if sources then ["distribution_sources.png"] else []) ++ ["footprint_portfolio.png"]

def render (k : String × String) : String := k.1 ++ k.2 ++ ".png"

def keys (feats algos : List String) : List (String × String) :=
  feats.map (fun l => ("distribution_feature_", l)) ++
  algos.flatMap fun l => (prefixes.drop 1).map fun p => (p, l)

theorem prefixes_apart : ∀ p ∈ prefixes, ∀ q ∈ prefixes, p.toList <+: q.toList → p = q := by
  decide +kernel

theorem plain_prefix : ∀ p ∈ prefixes, ∀ n ∈ plainNames true, p.toList <+: n.toList →
    p = "footprint_" ∧ n = "footprint_portfolio.png" := by decide +kernel

theorem toList_inj {a b : String} (h : a.toList = b.toList) : a = b := String.toList_inj.1 h

theorem render_inj {k k' : String × String} (hk : k.1 ∈ prefixes) (hk' : k'.1 ∈ prefixes)
    (h : render k = render k') : k = k' := by
  have h' := congrArg String.toList h
  simp only [render, String.toList_append, List.append_assoc] at h'
  have hp : k.1 = k'.1 := by
    rcases List.prefix_or_prefix_of_prefix (l₁ := k.1.toList) (l₂ := k'.1.toList)
      (l₃ := k.1.toList ++ (k.2.toList ++ ".png".toList)) (List.prefix_append _ _)
      (h' ▸ List.prefix_append _ _) with h1 | h1
    · exact prefixes_apart _ hk _ hk' h1
    · exact (prefixes_apart _ hk' _ hk h1).symm
  rw [hp] at h'
  have h2 := List.append_cancel_right (List.append_cancel_left h')
  exact Prod.ext hp (toList_inj h2)

theorem render_plain {k : String × String} (hk : k.1 ∈ prefixes)
    (h : render k ∈ plainNames true) : k = ("footprint_", "portfolio") := by
  have hpre : k.1.toList <+: (render k).toList := by
    simp only [render, String.toList_append, List.append_assoc]
    exact List.prefix_append _ _
  obtain ⟨h1, h2⟩ := plain_prefix _ hk _ h hpre
  have h3 := congrArg String.toList h2
  simp only [render, String.toList_append, h1, List.append_assoc] at h3
  have h4 : "footprint_portfolio.png".toList =
      "footprint_".toList ++ ("portfolio".toList ++ ".png".toList) := by decide +kernel
  rw [h4] at h3
  exact Prod.ext h1 (toList_inj (List.append_cancel_right (List.append_cancel_left h3)))

theorem keys_prefix {feats algos : List String} {k : String × String}
    (h : k ∈ keys feats algos) : k.1 ∈ prefixes ∧
      (k.1 = "footprint_" → k.2 ∈ algos) := by
  rcases List.mem_append.1 h with h | h
  · obtain ⟨l, -, rfl⟩ := List.mem_map.1 h
    exact ⟨show "distribution_feature_" ∈ prefixes by decide,
      fun h => absurd (show "distribution_feature_" = "footprint_" from h) (by decide)⟩
  · obtain ⟨l, hl, h⟩ := List.mem_flatMap.1 h
    obtain ⟨p, hp, rfl⟩ := List.mem_map.1 h
    exact ⟨List.mem_of_mem_drop hp, fun _ => hl⟩

theorem keys_nodup {feats algos : List String} (hf : feats.Nodup) (ha : algos.Nodup) :
    (keys feats algos).Nodup := by
  unfold keys
  rw [List.nodup_append]
  refine ⟨hf.map fun a b h => (Prod.mk.inj h).2, ?_, ?_⟩
  · rw [List.nodup_flatMap]
    refine ⟨fun l _ => ?_, ?_⟩
    · exact (show (prefixes.drop 1).Nodup by decide +kernel).map fun a b h => (Prod.mk.inj h).1
    · refine ha.imp ?_
      intro a b hab x hx hx'
      obtain ⟨p, -, rfl⟩ := List.mem_map.1 hx
      obtain ⟨q, -, h⟩ := List.mem_map.1 hx'
      exact hab (Prod.mk.inj h).2.symm
  · intro k hk k' hk' he
    obtain ⟨l, -, rfl⟩ := List.mem_map.1 hk
    subst he
    obtain ⟨l', -, h⟩ := List.mem_flatMap.1 hk'
    obtain ⟨p, hp, h⟩ := List.mem_map.1 h
    rw [(Prod.mk.inj h).1] at hp
    exact absurd hp (by decide +kernel)

/-- All names, when there are enough labels. -/
def plotNames (feats algos : List String) (sources : Bool) : List String :=
  (keys feats algos).map render ++ plainNames sources

theorem plotNames_nodup {feats algos : List String} (sources : Bool) (hf : feats.Nodup)
    (ha : algos.Nodup) (hp : "portfolio" ∉ algos) : (plotNames feats algos sources).Nodup := by
  have hsub : ∀ n ∈ plainNames sources, n ∈ plainNames true := by
    cases sources <;> decide +kernel
  unfold plotNames
  rw [List.nodup_append]
  refine ⟨?_, by cases sources <;> decide +kernel, ?_⟩
  · refine List.Nodup.map_on ?_ (keys_nodup hf ha)
    intro k hk k' hk' h
    exact render_inj (keys_prefix hk).1 (keys_prefix hk').1 h
  · intro n hn n' hn' he
    obtain ⟨k, hk, rfl⟩ := List.mem_map.1 hn
    subst he
    have := render_plain (keys_prefix hk).1 (hsub _ hn')
    subst this
    exact hp ((keys_prefix hk).2 rfl)

/-! ### What is written -/

theorem perform_ok {β : Type} : ∀ (l : List β), perform (l.map Except.ok) = (l, none) := by
  intro l
  induction l with
  | nil => rfl
  | cons a l ih => simp only [List.map_cons, perform, ih]

/-- The pictures of one algorithm. -/
def algorithmPictures {α : Type} (lg : Num → Num) (d : Plotted α) (i : Nat) (l : String)
    (g : Option (Geometry α)) : List (String × Picture α) :=
  [ ("distribution_performance_global_normalized_" ++ l ++ ".png",
      drawScatter (spaced l) ((columnOf d.yRaw i).map (plotGlobal lg d.yRaw i))),
    ("distribution_performance_individual_normalized_" ++ l ++ ".png",
      drawScatter (spaced l) ((columnOf d.yRaw i).map (plotIndividual (columnOf d.yRaw i)))),
    ("binary_performance_" ++ l ++ ".png", drawBinary (spaced l) (boolColumn d.yBin i)),
    ("binary_svm_" ++ l ++ ".png", drawBinary (spaced l) (boolColumn d.yHat i)),
    ("footprint_" ++ l ++ ".png",
      drawGoodBad (spaced l ++ " Footprint") (boolColumn (yFoot d) i) g) ]

theorem algorithmPlots_eq {α : Type} (lg : Num → Num) (d : Plotted α) (i : Nat) (l : String)
    (g : Option (Geometry α)) (hl : d.algoLabels[i]? = some l) (hg : d.good[i]? = some g) :
    algorithmPlots lg d i = (algorithmPictures lg d i l g).map .ok := by
  unfold algorithmPlots algorithmPictures
  rw [hl]
  simp only [hg]
  rfl

theorem featurePlot_eq {α : Type} (d : Plotted α) (i : Nat) (l : String)
    (hl : d.featLabels[i]? = some l) :
    featurePlot d i = .ok ("distribution_feature_" ++ l ++ ".png",
      drawScatter (spaced l) ((columnOf d.x i).map (plotFeature (columnOf d.x i)))) := by
  unfold featurePlot
  rw [hl]
  rfl

/-- The labels and footprints are there: one label per feature, one label and one footprint per
algorithm. -/
structure Complete {α : Type} (d : Plotted α) : Prop where
  feats : d.featLabels.length = d.nfeats
  algos : d.algoLabels.length = d.nalgos
  good : d.good.length = d.nalgos

/-- All pictures of a complete model. -/
def allPictures {α : Type} (lg : Num → Num) (d : Plotted α) : List (String × Picture α) :=
  ((List.range d.nfeats).map fun i =>
    ("distribution_feature_" ++ d.featLabels.getD i "" ++ ".png",
      drawScatter (spaced (d.featLabels.getD i ""))
        ((columnOf d.x i).map (plotFeature (columnOf d.x i))))) ++
  ((List.range d.nalgos).flatMap fun i =>
    algorithmPictures lg d i (d.algoLabels.getD i "") (d.good.getD i none)) ++
  [ ("distribution_number_good_algos.png", drawScatter "Percentage of good algorithms"
      (d.numGood.map fun v => v / .fin d.nalgos)),
    ("distribution_portfolio.png", drawPortfolio "Best algorithm" d.algoLabels d.p none),
    ("distribution_svm_portfolio.png",
      drawPortfolio "Predicted best algorithm" d.algoLabels d.selection0 none),
    ("distribution_beta_score.png", drawBinary "Beta score" d.beta) ] ++
  (match d.s with
    | none => []
    | some s => [("distribution_sources.png", drawSources s)]) ++
  [ ("footprint_portfolio.png",
      drawPortfolio "Portfolio footprints" d.algoLabels (pFoot d) (some d.best)) ]

theorem saveGraphs_complete {α : Type} (lg : Num → Num) (d : Plotted α) (hc : Complete d) :
    saveGraphs lg true d = (allPictures lg d, none) := by
  have h1 : (List.range d.nfeats).map (featurePlot d) = ((List.range d.nfeats).map fun i =>
      ("distribution_feature_" ++ d.featLabels.getD i "" ++ ".png",
        drawScatter (spaced (d.featLabels.getD i ""))
          ((columnOf d.x i).map (plotFeature (columnOf d.x i))))).map .ok := by
    rw [List.map_map]
    apply List.map_congr_left
    intro i hi
    rw [List.mem_range] at hi
    have hl : d.featLabels[i]? = some (d.featLabels.getD i "") := by
      rw [List.getD_eq_getElem?_getD, List.getElem?_eq_getElem (by rw [hc.feats]; exact hi)]
      rfl
    rw [featurePlot_eq d i _ hl]
    rfl
  have h2 : (List.range d.nalgos).flatMap (algorithmPlots lg d) =
      ((List.range d.nalgos).flatMap fun i =>
        algorithmPictures lg d i (d.algoLabels.getD i "") (d.good.getD i none)).map .ok := by
    rw [List.map_flatMap]
    apply List.flatMap_congr
    intro i hi
    rw [List.mem_range] at hi
    have hl : d.algoLabels[i]? = some (d.algoLabels.getD i "") := by
      rw [List.getD_eq_getElem?_getD, List.getElem?_eq_getElem (by rw [hc.algos]; exact hi)]
      rfl
    have hg : d.good[i]? = some (d.good.getD i none) := by
      rw [List.getD_eq_getElem?_getD, List.getElem?_eq_getElem (by rw [hc.good]; exact hi)]
      rfl
    exact algorithmPlots_eq lg d i _ _ hl hg
  have h3 : graphActions lg d = (allPictures lg d).map .ok := by
    unfold graphActions allPictures
    rw [h1, h2]
    simp only [List.map_append]
    cases d.s <;> rfl
  unfold saveGraphs
  rw [if_pos rfl, h3, perform_ok]

theorem range_getD {l : List String} {n : Nat} (h : l.length = n) :
    (List.range n).map (fun i => l.getD i "") = l := by
  apply List.ext_getElem?
  intro i
  by_cases hi : i < n
  · rw [List.getElem?_map, List.getElem?_range hi, Option.map_some,
      List.getElem?_eq_getElem (by omega), List.getD_eq_getElem?_getD,
      List.getElem?_eq_getElem (by omega)]
    rfl
  · rw [List.getElem?_eq_none (by simp; omega), List.getElem?_eq_none (by omega)]

theorem allPictures_names {α : Type} (lg : Num → Num) (d : Plotted α) (hc : Complete d) :
    (allPictures lg d).map Prod.fst = plotNames d.featLabels d.algoLabels d.s.isSome := by
  have h1 : keys d.featLabels d.algoLabels =
      (List.range d.nfeats).map (fun i => ("distribution_feature_", d.featLabels.getD i "")) ++
      (List.range d.nalgos).flatMap fun i =>
        (prefixes.drop 1).map fun p => (p, d.algoLabels.getD i "") := by
    unfold keys
    conv_lhs => rw [← range_getD hc.feats, ← range_getD hc.algos]
    rw [List.map_map, List.flatMap_map]
    rfl
  unfold plotNames
  rw [h1]
  unfold allPictures plainNames
  simp only [List.map_append, List.map_map, List.map_flatMap]
  cases d.s <;> simp [render, prefixes, algorithmPictures, Function.comp_def]

theorem mem_rowsWith {y : List Bool} {b : Bool} {t : Nat} :
    t ∈ rowsWith y b ↔ y[t]? = some b := by
  unfold rowsWith
  rw [List.mem_filter, List.mem_range, List.getD_eq_getElem?_getD]
  constructor
  · rintro ⟨h1, h2⟩
    rw [List.getElem?_eq_getElem h1] at h2 ⊢
    simpa using h2
  · intro h
    have h1 := (List.getElem?_eq_some_iff.1 h).1
    exact ⟨h1, by rw [h]; simp⟩

end Verif.Export
