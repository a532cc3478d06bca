import Verif.Export.GraphLemmas
import Verif.Metadata.Model
import Verif.Trace.Props
/-!
# The plots: C127, C128, C129, C130
-/
set_option autoImplicit false
set_option linter.unusedSectionVars false

namespace Verif.Export

open Verif (Num)

/-! ### C127: every plot has its own file -/

/-- The full claim: all plots of a model with different labels get different file names. -/
def PlotsKept : Prop :=
  ∀ (lg : Num → Num) (d : Plotted ℚ), Complete d → d.featLabels.Nodup → d.algoLabels.Nodup →
    ((saveGraphs lg true d).1.map Prod.fst).Nodup

/-- A model with one feature and one algorithm. -/
def smallPlot (algo : String) : Plotted ℚ where
  featLabels := ["f"]
  algoLabels := [algo]
  nfeats := 1
  nalgos := 1
  x := [[1], [2]]
  yRaw := [[1], [2]]
  yBin := [[true], [false]]
  p := [1, 1]
  numGood := [1, 0]
  beta := [true, false]
  s := some ["b", "a"]
  yHat := [[true], [false]]
  selection0 := [0, 0]
  useSim := false
  good := [some (.polygon ⟨[(0, 0), (1, 0), (0, 1), (0, 0)], []⟩)]
  best := [none]

/-- **C127** is false: the footprint of an algorithm called `portfolio` is replaced by the portfolio
plot. -/
theorem C127_refuted : ¬ PlotsKept := by
  intro h
  have := h (fun v => v) (smallPlot "portfolio") ⟨rfl, rfl, rfl⟩ (by decide) (by decide)
  rw [saveGraphs_complete _ _ ⟨rfl, rfl, rfl⟩, allPictures_names _ _ ⟨rfl, rfl, rfl⟩] at this
  revert this
  decide +kernel

/-- **C127, true part.** With different labels, none of them `portfolio`, saving raises nothing and
all files have different names: one per feature, five per algorithm and six for the whole
(five if there are no sources).  Missing: an algorithm called `portfolio`. -/
theorem C127_partial {α : Type} (lg : Num → Num) (d : Plotted α) (hc : Complete d)
    (hf : d.featLabels.Nodup) (ha : d.algoLabels.Nodup) (hp : "portfolio" ∉ d.algoLabels) :
    (saveGraphs lg true d).2 = none ∧ ((saveGraphs lg true d).1.map Prod.fst).Nodup ∧
    (∀ n, n ∈ (saveGraphs lg true d).1.map Prod.fst ↔
      (∃ l ∈ d.featLabels, n = "distribution_feature_" ++ l ++ ".png") ∨
      (∃ l ∈ d.algoLabels, n ∈
        ["distribution_performance_global_normalized_" ++ l ++ ".png",
         "distribution_performance_individual_normalized_" ++ l ++ ".png",
         "binary_performance_" ++ l ++ ".png", "binary_svm_" ++ l ++ ".png",
         "footprint_" ++ l ++ ".png"]) ∨
      n ∈ ["distribution_number_good_algos.png", "distribution_portfolio.png",
        "distribution_svm_portfolio.png", "distribution_beta_score.png",
        "footprint_portfolio.png"] ∨
      (n = "distribution_sources.png" ∧ ∃ s, d.s = some s)) := by
  rw [saveGraphs_complete lg d hc, allPictures_names lg d hc]
  refine ⟨rfl, plotNames_nodup _ hf ha hp, fun n => ?_⟩
  unfold plotNames keys plainNames
  simp only [List.map_append, List.mem_append, List.map_map, List.mem_map, List.mem_flatMap,
    List.map_flatMap, prefixes, List.drop_succ_cons, List.drop_zero, Function.comp_def, render,
    List.mem_cons, List.not_mem_nil, or_false, List.map_cons, List.map_nil]
  cases d.s with
  | none =>
    simp only [Option.isSome_none, Bool.false_eq_true, if_false, List.not_mem_nil, or_false,
      reduceCtorEq, exists_false, and_false]
    constructor
    · rintro ((⟨l, h1, rfl⟩ | h) | h)
      · exact .inl ⟨l, h1, rfl⟩
      · exact .inr (.inl h)
      · right; right; tauto
    · rintro (⟨l, h1, rfl⟩ | h | h)
      · exact .inl (.inl ⟨l, h1, rfl⟩)
      · exact .inl (.inr h)
      · right; tauto
  | some s =>
    simp only [Option.isSome_some, if_true, List.mem_cons, List.not_mem_nil, or_false,
      Option.some.injEq, exists_eq', and_true]
    constructor
    · rintro ((⟨l, h1, rfl⟩ | h) | h)
      · exact .inl ⟨l, h1, rfl⟩
      · exact .inr (.inl h)
      · right; right; tauto
    · rintro (⟨l, h1, rfl⟩ | h | h)
      · exact .inl (.inl ⟨l, h1, rfl⟩)
      · exact .inl (.inr h)
      · right; tauto

/-- **C127 for loaded metadata.** Labels of metadata read from a table start with `algo_`, so none is
`portfolio`. -/
theorem C127_loaded_partial {α : Type} (lower : String → String)
    (hlow : lower "portfolio" = "portfolio") (lg : Num → Num) (d : Plotted α) (hc : Complete d)
    (hf : d.featLabels.Nodup) (ha : d.algoLabels.Nodup)
    (hl : ∀ l ∈ d.algoLabels, Metadata.isAlgo lower l = true) :
    ((saveGraphs lg true d).1.map Prod.fst).Nodup := by
  refine (C127_partial lg d hc hf ha fun h => ?_).2.1
  have := hl _ h
  unfold Metadata.isAlgo at this
  rw [hlow] at this
  revert this
  decide +kernel

/-- Non-vacuity for C127. -/
example : Complete (smallPlot "algo_a") ∧ (smallPlot "algo_a").featLabels.Nodup ∧
    "portfolio" ∉ (smallPlot "algo_a").algoLabels ∧
    (∀ l ∈ (smallPlot "algo_a").algoLabels, Metadata.isAlgo id l = true) ∧
    (saveGraphs id true (smallPlot "algo_a")).1.length = 12 :=
  ⟨⟨rfl, rfl, rfl⟩, by decide, by decide, by decide +kernel, by decide +kernel⟩

/-! ### C128: what the good/bad plots show -/

/-- Every one of `n` instances is drawn exactly once, under the label given by `lab`. -/
def ShowsEach {α : Type} (pic : Picture α) (n : Nat) (lab : Nat → Option String) : Prop :=
  (pic.clouds.flatMap (·.instances)).Perm (List.range n) ∧
  ∀ c ∈ pic.clouds, ∀ t ∈ c.instances, lab t = some c.label

/-- GOOD or BAD. -/
def goodBad (y : List Bool) (t : Nat) : Option String :=
  y[t]?.map fun b => if b then "GOOD" else "BAD"

theorem cloudIfAny_flat (label : String) (rows : List Nat) :
    (cloudIfAny label rows).flatMap (·.instances) = rows := by
  unfold cloudIfAny
  split
  · next h => rw [List.isEmpty_iff.1 h]; rfl
  · simp

theorem rows_perm (y : List Bool) :
    (rowsWith y false ++ rowsWith y true).Perm (List.range y.length) := by
  rw [List.perm_ext_iff_of_nodup]
  · intro t
    rw [List.mem_append, mem_rowsWith, mem_rowsWith, List.mem_range]
    constructor
    · rintro (h | h) <;> exact (List.getElem?_eq_some_iff.1 h).1
    · intro h
      rw [List.getElem?_eq_getElem h]
      cases y[t] <;> simp
  · rw [List.nodup_append]
    refine ⟨List.nodup_range.filter _, List.nodup_range.filter _, ?_⟩
    rintro a ha b hb rfl
    rw [mem_rowsWith] at ha hb
    rw [ha] at hb
    cases hb
  · exact List.nodup_range

theorem clouds_shows (y : List Bool) :
    (((cloudIfAny "BAD" (rowsWith y false) ++ cloudIfAny "GOOD" (rowsWith y true)).flatMap
      (·.instances)).Perm (List.range y.length)) ∧
    ∀ c ∈ cloudIfAny "BAD" (rowsWith y false) ++ cloudIfAny "GOOD" (rowsWith y true),
      ∀ t ∈ c.instances, goodBad y t = some c.label := by
  constructor
  · rw [List.flatMap_append, cloudIfAny_flat, cloudIfAny_flat]
    exact rows_perm y
  · intro c hc t ht
    rcases List.mem_append.1 hc with hc | hc <;>
    · unfold cloudIfAny at hc
      split at hc
      · cases hc
      · rw [List.mem_singleton] at hc
        subst hc
        rw [mem_rowsWith] at ht
        unfold goodBad
        rw [ht]
        rfl

/-- **C128** The files `binary_performance_...` and `binary_svm_...` of algorithm `i` show every
instance once, as GOOD exactly when the binary performance (the prediction) says so; the beta plot
likewise. -/
theorem C128_binary {α : Type} (lg : Num → Num) (d : Plotted α) (hc : Complete d) (i : Nat)
    (l : String) (hl : d.algoLabels[i]? = some l) :
    (∃ pic, ("binary_performance_" ++ l ++ ".png", pic) ∈ (saveGraphs lg true d).1 ∧
      ShowsEach pic d.yBin.length (goodBad (d.yBin.map fun r => r.getD i false))) ∧
    (∃ pic, ("binary_svm_" ++ l ++ ".png", pic) ∈ (saveGraphs lg true d).1 ∧
      ShowsEach pic d.yHat.length (goodBad (d.yHat.map fun r => r.getD i false))) ∧
    ∃ pic, ("distribution_beta_score.png", pic) ∈ (saveGraphs lg true d).1 ∧
      ShowsEach pic d.beta.length (goodBad d.beta) := by
  rw [saveGraphs_complete lg d hc]
  have hi : i < d.nalgos := hc.algos ▸ (List.getElem?_eq_some_iff.1 hl).1
  have hget : d.algoLabels.getD i "" = l := by rw [List.getD_eq_getElem?_getD, hl]; rfl
  have hmem : ∀ q ∈ algorithmPictures lg d i l (d.good.getD i none), q ∈ allPictures lg d := by
    intro q hq
    unfold allPictures
    simp only [List.mem_append, List.mem_flatMap, List.mem_range]
    exact .inl (.inl (.inl (.inr ⟨i, hi, by rw [hget]; exact hq⟩)))
  refine ⟨⟨_, hmem _ (by simp only [algorithmPictures, List.mem_cons]; right; right; left; rfl), ?_⟩,
    ⟨_, hmem _ (by simp only [algorithmPictures, List.mem_cons]; right; right; right; left; rfl), ?_⟩,
    ⟨drawBinary "Beta score" d.beta, ?_, ?_⟩⟩
  · have := clouds_shows (boolColumn d.yBin i)
    rw [show (boolColumn d.yBin i).length = d.yBin.length from List.length_map _] at this
    exact this
  · have := clouds_shows (boolColumn d.yHat i)
    rw [show (boolColumn d.yHat i).length = d.yHat.length from List.length_map _] at this
    exact this
  · unfold allPictures
    simp
  · exact clouds_shows d.beta

/-- **C128** The file of an algorithm's footprint shows the instances from which TRACE built the
footprint as GOOD, all others as BAD, and the outlines of that footprint.  TRACE takes the
predictions or the measured performances (`traceArguments`), the plot takes the same. -/
theorem C128_footprint {α P K : Type} [Field K] [LinearOrder K]
    [IsStrictOrderedRing K] (geo : Trace.Geo (Geometry α) P K) (laws : Trace.Laws geo) (purity : K)
    (z : List P) (lg : Num → Num) (d : Plotted α) (hc : Complete d) (i : Nat) (l : String)
    (hl : d.algoLabels[i]? = some l)
    (hgood : d.good[i]? = some (Trace.build geo purity z (Trace.goodMask
      (traceArguments d.useSim d.yBin d.yHat d.p d.selection0).1 i)).polygon) :
    ∃ pic, ("footprint_" ++ l ++ ".png", pic) ∈ (saveGraphs lg true d).1 ∧
      ShowsEach pic (if d.useSim then d.yHat else d.yBin).length
        (goodBad (Trace.goodMask (traceArguments d.useSim d.yBin d.yHat d.p d.selection0).1 i)) ∧
      pic.patches = outlines (Trace.build geo purity z (Trace.goodMask
        (traceArguments d.useSim d.yBin d.yHat d.p d.selection0).1 i)).polygon := by
  rw [saveGraphs_complete lg d hc]
  have hi : i < d.nalgos := hc.algos ▸ (List.getElem?_eq_some_iff.1 hl).1
  have hget : d.algoLabels.getD i "" = l := by rw [List.getD_eq_getElem?_getD, hl]; rfl
  have hgg : d.good.getD i none = (Trace.build geo purity z (Trace.goodMask
      (traceArguments d.useSim d.yBin d.yHat d.p d.selection0).1 i)).polygon := by
    rw [List.getD_eq_getElem?_getD, hgood]; rfl
  have hy : boolColumn (yFoot d) i =
      Trace.goodMask (traceArguments d.useSim d.yBin d.yHat d.p d.selection0).1 i := by
    unfold boolColumn yFoot Trace.goodMask traceArguments
    split <;> rfl
  have hlen : (boolColumn (yFoot d) i).length = (if d.useSim then d.yHat else d.yBin).length :=
    List.length_map _
  have hs := clouds_shows (boolColumn (yFoot d) i)
  rw [hlen] at hs
  refine ⟨drawGoodBad (spaced l ++ " Footprint") (boolColumn (yFoot d) i) (d.good.getD i none),
    ?_, ?_, ?_⟩
  · unfold allPictures
    simp only [List.mem_append, List.mem_flatMap, List.mem_range]
    refine .inl (.inl (.inl (.inr ⟨i, hi, ?_⟩)))
    rw [hget]
    simp [algorithmPictures]
  · rw [← hy]
    exact hs
  · rw [hgg, hy]
    unfold drawGoodBad
    simp only
    split
    · next he =>
      have hnone : (Trace.build geo purity z (Trace.goodMask
          (traceArguments d.useSim d.yBin d.yHat d.p d.selection0).1 i)).polygon = none := by
        rw [Trace.C96_missing]
        have hall : ∀ (y : List Bool) (z : List P), rowsWith y true = [] →
            Trace.masked z y = [] := by
          intro y z hy
          have hf : ∀ b ∈ y, b = false := by
            intro b hb
            obtain ⟨t, ht⟩ := List.getElem?_of_mem hb
            cases b with
            | false => rfl
            | true => rw [← mem_rowsWith, hy] at ht; cases ht
          clear hy
          induction z generalizing y with
          | nil => cases y <;> rfl
          | cons a z ih =>
            cases y with
            | nil => rfl
            | cons b y =>
              have hb := hf b List.mem_cons_self
              subst hb
              exact ih y fun b hb => hf b (List.mem_cons_of_mem _ hb)
        have h0 := laws.unique_length (Trace.masked z (Trace.goodMask
          (traceArguments d.useSim d.yBin d.yHat d.p d.selection0).1 i))
        rw [hall _ z (List.isEmpty_iff.1 he)] at h0 ⊢
        simp only [List.length_nil] at h0
        omega
      rw [hnone]
      rfl
    · rfl

/-- **C128** The source plot shows every instance once, under the name of its source. -/
theorem C128_sources {α : Type} (lg : Num → Num) (d : Plotted α) (hc : Complete d) (s : List String)
    (hs : d.s = some s) :
    ∃ pic, ("distribution_sources.png", pic) ∈ (saveGraphs lg true d).1 ∧
      ShowsEach pic s.length fun t => s[t]? := by
  rw [saveGraphs_complete lg d hc]
  refine ⟨drawSources s, ?_, ?_, ?_⟩
  · unfold allPictures
    simp [hs]
  · unfold drawSources
    rw [List.flatMap_map]
    rw [List.perm_ext_iff_of_nodup]
    · intro t
      simp only [List.mem_flatMap, List.mem_reverse, List.mem_insertionSort, List.mem_dedup,
        List.mem_filter, List.mem_range, decide_eq_true_eq]
      constructor
      · rintro ⟨l, -, h, -⟩; exact h
      · intro h
        exact ⟨s[t], List.getElem_mem h, h, List.getElem?_eq_getElem h⟩
    · rw [List.nodup_flatMap]
      refine ⟨fun l _ => List.nodup_range.filter _, ?_⟩
      have hnd : ((s.dedup.insertionSort (· ≤ ·)).reverse).Nodup := by
        rw [List.nodup_reverse, (List.perm_insertionSort _ _).nodup_iff]
        exact List.nodup_dedup s
      refine hnd.imp ?_
      intro a b hab t h1 h2
      simp only [List.mem_filter, List.mem_range, decide_eq_true_eq] at h1 h2
      exact hab (Option.some.inj (h1.2.symm.trans h2.2))
    · exact List.nodup_range
  · intro c hcl t ht
    unfold drawSources at hcl
    obtain ⟨l, -, rfl⟩ := List.mem_map.1 hcl
    simp only [List.mem_filter, decide_eq_true_eq] at ht
    exact ht.2

/-- The picture colours every instance by one value: instance `t` by the value `val t`. -/
def ColoursEach {α : Type} (pic : Picture α) (n : Nat) (val : Nat → Option Num) : Prop :=
  ∃ values : List Num, values.length = n ∧
    pic.clouds = [⟨"", List.range n, some values⟩] ∧ ∀ t, values[t]? = val t

theorem drawScatter_colours {α : Type} (title : String) (values : List Num) :
    ColoursEach (drawScatter title values : Picture α) values.length fun t => values[t]? :=
  ⟨values, rfl, rfl, fun _ => rfl⟩

/-- **C128** The file of a feature colours every instance by its own value of that feature, rescaled
by the smallest and the largest value; the number of good algorithms is shown as a fraction of all
algorithms. -/
theorem C128_values {α : Type} (lg : Num → Num) (d : Plotted α) (hc : Complete d) (i : Nat)
    (l : String) (hl : d.featLabels[i]? = some l) :
    (∃ pic, ("distribution_feature_" ++ l ++ ".png", pic) ∈ (saveGraphs lg true d).1 ∧
      ColoursEach pic d.x.length fun t => d.x[t]?.map fun r =>
        (r.getD i .nan - npMin (d.x.map fun r => r.getD i .nan)) /
          (npMax (d.x.map fun r => r.getD i .nan) - npMin (d.x.map fun r => r.getD i .nan))) ∧
    ∃ pic, ("distribution_number_good_algos.png", pic) ∈ (saveGraphs lg true d).1 ∧
      ColoursEach pic d.numGood.length fun t => d.numGood[t]?.map fun v => v / .fin d.nalgos := by
  rw [saveGraphs_complete lg d hc]
  have hi : i < d.nfeats := hc.feats ▸ (List.getElem?_eq_some_iff.1 hl).1
  have hget : d.featLabels.getD i "" = l := by rw [List.getD_eq_getElem?_getD, hl]; rfl
  refine ⟨⟨drawScatter (spaced l) ((columnOf d.x i).map (plotFeature (columnOf d.x i))), ?_, ?_⟩,
    ⟨drawScatter "Percentage of good algorithms" (d.numGood.map fun v => v / .fin d.nalgos), ?_, ?_⟩⟩
  · unfold allPictures
    simp only [List.mem_append, List.mem_map, List.mem_range]
    refine .inl (.inl (.inl (.inl ⟨i, hi, ?_⟩)))
    rw [hget]
  · have h := drawScatter_colours (α := α) (spaced l)
      ((columnOf d.x i).map (plotFeature (columnOf d.x i)))
    obtain ⟨vs, h1, h2, h3⟩ := h
    have hlen : ((columnOf d.x i).map (plotFeature (columnOf d.x i))).length = d.x.length := by
      simp [columnOf]
    rw [hlen] at h1 h2
    refine ⟨vs, h1, h2, fun t => ?_⟩
    rw [h3]
    simp only [columnOf, List.getElem?_map]
    cases d.x[t]? <;> rfl
  · unfold allPictures
    simp
  · have h := drawScatter_colours (α := α) "Percentage of good algorithms"
      (d.numGood.map fun v => v / .fin d.nalgos)
    obtain ⟨vs, h1, h2, h3⟩ := h
    rw [List.length_map] at h1 h2
    exact ⟨vs, h1, h2, fun t => by rw [h3]; simp only [List.getElem?_map]⟩

/-- **C115, what is drawn.** The portfolio footprints show the selections that TRACE analysed, and
the outline of `best[k]` is drawn exactly when `k` is among these selections.  With predictions,
counted from 0, that is the footprint of the selected algorithm.  Missing: without predictions the
selections are counted from 1 (`C115_refuted`). -/
theorem C115_drawn_partial {α : Type} (lg : Num → Num) (d : Plotted α) (hc : Complete d)
    (shown : List Int) (hs : shown = if d.useSim then d.selection0 else d.p) :
    shown = (traceArguments d.useSim d.yBin d.yHat d.p d.selection0).2 ∧
    ∃ pic, ("footprint_portfolio.png", pic) ∈ (saveGraphs lg true d).1 ∧
      pic.patches = (List.range d.algoLabels.length).flatMap fun (k : Nat) =>
        if (k : Int) ∈ shown then outlines (d.best.getD k none) else [] := by
  rw [saveGraphs_complete lg d hc]
  refine ⟨by rw [hs]; unfold traceArguments; split <;> rfl,
    drawPortfolio "Portfolio footprints" d.algoLabels (pFoot d) (some d.best), ?_, ?_⟩
  · unfold allPictures
    simp
  · have hp : pFoot d = shown := by rw [hs]; rfl
    rw [hp]
    unfold drawPortfolio portfolioGroups
    simp only [Option.isSome_some, if_true]
    generalize List.range d.algoLabels.length = ks
    induction ks with
    | nil => rfl
    | cons k ks ih =>
      have hmem : (instancesOf shown k).isEmpty = true ↔ (k : Int) ∉ shown := by
        unfold instancesOf
        rw [List.isEmpty_iff, List.filter_eq_nil_iff]
        simp only [List.mem_range, decide_eq_true_eq]
        constructor
        · intro h hk
          obtain ⟨t, ht, hk⟩ := List.getElem_of_mem hk
          apply h t ht
          rw [List.getD_eq_getElem?_getD, List.getElem?_eq_getElem ht, hk]
          rfl
        · intro h t ht hk
          apply h
          rw [List.getD_eq_getElem?_getD, List.getElem?_eq_getElem ht] at hk
          exact hk ▸ List.getElem_mem ht
      rw [List.filterMap_cons, List.flatMap_cons, ← ih]
      by_cases hk : (k : Int) ∈ shown
      · have : ¬ (instancesOf shown k).isEmpty = true := fun h => hmem.1 h hk
        simp only [if_neg this, if_pos hk, List.flatMap_cons]
      · simp only [if_pos (hmem.2 hk), if_neg hk, List.nil_append]

/-- Non-vacuity for `C115_drawn_partial`: two footprints, of which the second is selected. -/
example : (drawPortfolio (α := ℚ) "t" ["a", "b"] [1, 1]
    (some [some (.polygon ⟨[(0, 0), (1, 0), (0, 1)], []⟩),
      some (.polygon ⟨[(5, 5), (6, 5), (5, 6)], []⟩)])).patches = [[(5, 5), (6, 5), (5, 6)]] := by
  decide +kernel

/-- Non-vacuity for C128: algorithm 0 of `smallPlot`, and three sources. -/
example : (smallPlot "algo_a").algoLabels[0]? = some "algo_a" ∧
    (drawBinary (α := ℚ) "t" [true, false, true]).clouds = [⟨"BAD", [1], none⟩, ⟨"GOOD", [0, 2], none⟩] ∧
    (drawSources (α := ℚ) ["b", "a", "b"]).clouds = [⟨"b", [0, 2], none⟩, ⟨"a", [1], none⟩] :=
  ⟨rfl, by decide +kernel, by decide +kernel⟩

/-! ### C129: the drawn footprint -/

/-- The full claim: the drawn outlines show which points belong to the footprint, that is two
footprints with the same drawing are the same polygon. -/
def OutlinesDetermine : Prop :=
  ∀ p q : Polygon ℚ, outlines (some (.polygon p)) = outlines (some (.polygon q)) →
    p.exterior = q.exterior ∧ p.holes = q.holes

/-- **C129** is false: holes are not drawn, so a footprint with a hole looks like one without. -/
theorem C129_refuted : ¬ OutlinesDetermine := by
  intro h
  have := (h ⟨[(0, 0), (4, 0), (4, 4), (0, 4), (0, 0)], [[(1, 1), (2, 1), (2, 2), (1, 1)]]⟩
    ⟨[(0, 0), (4, 0), (4, 4), (0, 4), (0, 0)], []⟩ rfl).2
  cases this

/-- **C129, true part.** The drawing has the exterior of every polygon of the footprint, in order, and
nothing else; a missing footprint is not drawn.  Missing: the holes. -/
theorem C129_partial {α : Type} (ps : List (Polygon α)) (p : Polygon α) (r : List (α × α)) :
    (r ∈ outlines (some (.multi ps)) ↔ ∃ q ∈ ps, r = q.exterior) ∧
    (outlines (some (.multi ps))).length = ps.length ∧
    (r ∈ outlines (some (.polygon p)) ↔ r = p.exterior) ∧
    (outlines (none : Option (Geometry α))) = [] := by
  refine ⟨?_, ?_, ?_, rfl⟩
  · simp [outlines, eq_comm]
  · simp [outlines]
  · simp [outlines]

example : outlines (some (.multi [⟨[(0, 0), (1, 0), (0, 1), (0, 0)], []⟩,
    ⟨[(5, 5), (6, 5), (5, 6), (5, 5)], []⟩]) : Option (Geometry ℚ)) =
    [[(0, 0), (1, 0), (0, 1), (0, 0)], [(5, 5), (6, 5), (5, 6), (5, 5)]] := rfl

/-! ### C130: every instance is visible -/

/-- The full claim: every instance lies within the axes. -/
def AllVisible : Prop := ∀ z : List (ℚ × ℚ), ∀ q ∈ z, visible q = true

/-- **C130** is false: the axes end at 5 whatever the coordinates are. -/
theorem C130_refuted : ¬ AllVisible := fun h => by
  have := h [(1, 1), (7, 0)] (7, 0) (by simp)
  revert this
  decide +kernel

/-- **C130, true part.** Exactly the instances with both coordinates between -5 and 5 are visible. -/
theorem C130_partial (z : List (ℚ × ℚ)) :
    (∀ q ∈ z, visible q = true) ↔ ∀ q ∈ z, |q.1| ≤ 5 ∧ |q.2| ≤ 5 := by
  refine forall₂_congr fun q _ => ?_
  unfold visible
  rw [decide_eq_true_eq, abs_le, abs_le, and_assoc]

example : visible (5, -3) = true ∧ visible (5, -6) = false := by decide +kernel

end Verif.Export
