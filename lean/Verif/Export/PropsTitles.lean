import Verif.Export.PropsGraphs
/-!
# The plots: C161 (the titles)
-/
set_option autoImplicit false
set_option linter.unusedSectionVars false

namespace Verif.Export

open Verif (Num)

/-- The title `t` is the name `l` with every underscore printed as a blank and nothing else changed. -/
def TitleOf (l t : String) : Prop :=
  List.Forall₂ (fun c c' => (c = '_' ∧ c' = ' ') ∨ (c ≠ '_' ∧ c' = c)) l.toList t.toList

private theorem titleOf_spaced (l : String) : TitleOf l (spaced l) := by
  unfold TitleOf spaced
  rw [String.toList_map, List.forall₂_map_right_iff, List.forall₂_same]
  intro c _
  by_cases h : c = '_'
  · simp [h]
  · simp [h]

/-- **C161** Every plot carries the title of what it shows: the name of its feature or algorithm (followed
by "Footprint" for a footprint), or the fixed title of its file. -/
theorem C161_titles {α : Type} (lg : Num → Num) (d : Plotted α) (hc : Complete d) (n : String)
    (pic : Picture α) (h : (n, pic) ∈ (saveGraphs lg true d).1) :
    (∃ l ∈ d.featLabels, n = "distribution_feature_" ++ l ++ ".png" ∧ TitleOf l pic.title) ∨
    (∃ l ∈ d.algoLabels, n ∈
        ["distribution_performance_global_normalized_" ++ l ++ ".png",
         "distribution_performance_individual_normalized_" ++ l ++ ".png",
         "binary_performance_" ++ l ++ ".png", "binary_svm_" ++ l ++ ".png"] ∧ TitleOf l pic.title) ∨
    (∃ l ∈ d.algoLabels, n = "footprint_" ++ l ++ ".png" ∧
      ∃ t, TitleOf l t ∧ pic.title = t ++ " Footprint") ∨
    (n, pic.title) ∈
      [("distribution_number_good_algos.png", "Percentage of good algorithms"),
       ("distribution_portfolio.png", "Best algorithm"),
       ("distribution_svm_portfolio.png", "Predicted best algorithm"),
       ("distribution_beta_score.png", "Beta score"), ("distribution_sources.png", "Sources"),
       ("footprint_portfolio.png", "Portfolio footprints")] := by
  rw [saveGraphs_complete lg d hc] at h
  unfold allPictures at h
  simp only [List.mem_append, List.mem_map, List.mem_flatMap, List.mem_range] at h
  have hf : ∀ i < d.nfeats, d.featLabels.getD i "" ∈ d.featLabels := by
    intro i hi
    rw [List.getD_eq_getElem?_getD, List.getElem?_eq_getElem (by rw [hc.feats]; exact hi)]
    exact List.getElem_mem _
  have ha : ∀ i < d.nalgos, d.algoLabels.getD i "" ∈ d.algoLabels := by
    intro i hi
    rw [List.getD_eq_getElem?_getD, List.getElem?_eq_getElem (by rw [hc.algos]; exact hi)]
    exact List.getElem_mem _
  rcases h with (((⟨i, hi, h⟩ | ⟨i, hi, h⟩) | h) | h) | h
  · obtain ⟨rfl, rfl⟩ := Prod.mk.inj h
    exact .inl ⟨_, hf i hi, rfl, titleOf_spaced _⟩
  · unfold algorithmPictures at h
    simp only [List.mem_cons, List.not_mem_nil, or_false, Prod.mk.injEq] at h
    right
    rcases h with ⟨rfl, rfl⟩ | ⟨rfl, rfl⟩ | ⟨rfl, rfl⟩ | ⟨rfl, rfl⟩ | ⟨rfl, rfl⟩
    · exact .inl ⟨_, ha i hi, by simp, titleOf_spaced _⟩
    · exact .inl ⟨_, ha i hi, by simp, titleOf_spaced _⟩
    · exact .inl ⟨_, ha i hi, by simp, titleOf_spaced _⟩
    · exact .inl ⟨_, ha i hi, by simp, titleOf_spaced _⟩
    · exact .inr (.inl ⟨_, ha i hi, rfl, _, titleOf_spaced _, rfl⟩)
  · simp only [List.mem_cons, List.not_mem_nil, or_false, Prod.mk.injEq] at h
    right; right; right
    rcases h with ⟨rfl, rfl⟩ | ⟨rfl, rfl⟩ | ⟨rfl, rfl⟩ | ⟨rfl, rfl⟩ <;>
      simp [drawScatter, drawPortfolio, drawBinary]
  · right; right; right
    cases hs : d.s with
    | none => rw [hs] at h; cases h
    | some s =>
      rw [hs] at h
      simp only [List.mem_cons, List.not_mem_nil, or_false, Prod.mk.injEq] at h
      obtain ⟨rfl, rfl⟩ := h
      simp [drawSources]
  · simp only [List.mem_cons, List.not_mem_nil, or_false, Prod.mk.injEq] at h
    right; right; right
    obtain ⟨rfl, rfl⟩ := h
    simp [drawPortfolio]

/-- The full claim: the titles tell algorithms with different names apart. -/
def TitlesDiffer : Prop :=
  ∀ l l' t : String, TitleOf l t → TitleOf l' t → l = l'

/-- **C161** is false: the plots of the algorithms `A_1` and `A 1` have the same title. -/
theorem C161_refuted : ¬ TitlesDiffer := by
  intro h
  have := h "A_1" "A 1" "A 1" (by unfold TitleOf; simp) (by unfold TitleOf; simp)
  revert this
  decide

/-- **C161** (what holds) Names without blanks are told apart by the titles of their plots. -/
theorem C161_partial (l l' t : String) (h : TitleOf l t) (h' : TitleOf l' t) (hl : ' ' ∉ l.toList)
    (hl' : ' ' ∉ l'.toList) : l = l' := by
  apply String.toList_injective
  unfold TitleOf at h h'
  revert h h' hl hl'
  generalize l.toList = a, l'.toList = a', t.toList = b
  intro h
  induction h generalizing a' with
  | nil => intro h'; cases h'; simp
  | cons hc _ ih =>
    intro h' hl hl'
    cases h' with
    | cons hc' ht' =>
      simp only [List.mem_cons, not_or] at hl hl'
      rw [ih _ ht' hl.2 hl'.2]
      congr 1
      rcases hc with ⟨e, r⟩ | ⟨e, r⟩ <;> rcases hc' with ⟨e', r'⟩ | ⟨e', r'⟩
      · rw [e, e']
      · exact absurd (r'.symm.trans r).symm hl'.1
      · exact absurd (r.symm.trans r').symm hl.1
      · rw [← r, ← r']

/-- Non-vacuity for C161: the title of the algorithm `algo_a`, and a complete model with it. -/
example : TitleOf "algo_a" "algo a" ∧ ¬ TitleOf "algo_a" "algo-a" ∧ Complete (smallPlot "algo_a") ∧
    ' ' ∉ "algo_a".toList := by
  refine ⟨?_, ?_, ⟨rfl, rfl, rfl⟩, by decide⟩
  · unfold TitleOf; simp
  · unfold TitleOf; simp

end Verif.Export
