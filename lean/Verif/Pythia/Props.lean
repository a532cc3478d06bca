import Verif.Pythia.Lemmas
import Verif.Pythia.LemmasWeights
/-!
# Properties of PYTHIA (C64-C68, C97-C103)
-/
set_option autoImplicit false
set_option linter.unusedSectionVars false

namespace Verif.Pythia

open Verif (Num)

variable {lib : Lib} {n : Nat} {labels : List String} {y : List (List Num)}
  {yBin : List (List Bool)} {yBest : List Num} {fitted : Nat → Except Err SvmRes} {out : Out}

/-! ### A data set of three instances and two algorithms -/

/-- Rounding that changes nothing and a deviation that is always 0. -/
def exLib : Lib := ⟨id, fun _ => 0⟩

/-- Performances. -/
def exY : List (List Num) := [[10, 20], [30, 40], [50, 70]]

/-- Goodness: the second algorithm is good once, the first twice. -/
def exBin : List (List Bool) := [[true, false], [true, true], [false, false]]

/-- The predictions: the first algorithm is right about the first instance only, the second is
predicted good on the second instance; nothing is predicted good on the third. -/
def exFit : Nat → Except Err SvmRes
  | 0 => .ok ⟨[true, false, false], [true, true, false], [1, 1, 0], [1, 0, 0], 2, 3⟩
  | 1 => .ok ⟨[false, true, false], [false, false, true], [0, 0, 1], [0, 1, 0], 5, 7⟩
  | _ => .error .valueError

/-- The run on this data. -/
def exRun : Except Err Out := pythia exLib 2 ["A", "B"] exY exBin [20, 40, 70] exFit

theorem exRun_ok : ∃ out, exRun = .ok out ∧ exRun.toOption = some out := by
  have h : exRun.toOption.isSome = true := by decide +kernel
  rcases he : exRun with e | out
  · rw [he] at h
    cases h
  · exact ⟨out, rfl, rfl⟩

theorem exFit_sized : ∀ i res, exFit i = .ok res → Sized exBin.length res := by
  intro i res h
  rcases i with _ | _ | i
  · injection h with h
    subst h
    exact ⟨rfl, rfl, rfl, rfl⟩
  · injection h with h
    subst h
    exact ⟨rfl, rfl, rfl, rfl⟩
  · cases h

/-! ### C64 -/

/-- **C64.**  When some algorithm is predicted good with positive precision, both selections name
the first algorithm predicted good with the highest precision. -/
theorem C64_recommended (h : pythia lib n labels y yBin yBest fitted = .ok out) {i : Nat}
    {row : List Bool} (hrow : out.trained.yHat[i]? = some row)
    (hg : AnyGood out.trained.precision row) :
    ∃ s, out.selection0.vals[i]? = some s ∧ out.selection1.vals[i]? = some s ∧
      Recommended out.trained.precision row s := by
  obtain ⟨_, _, d, _, h0, h1, _⟩ := pythia_ok h
  obtain ⟨s, hs, hr⟩ := selectRow_some d hg
  refine ⟨s, ?_, ?_, hr⟩
  · rw [h0]
    simp [Sel.vals, hrow, hs]
  · rw [h1]
    simp [Sel.vals, hrow, hs]

/-- **C64.**  Otherwise the fallback selection names the first algorithm that is good on most
instances. -/
theorem C64_fallback (h : pythia lib n labels y yBin yBest fitted = .ok out) {i : Nat}
    {row : List Bool} (hs : ∀ i res, fitted i = .ok res → Sized yBin.length res)
    (hrow : out.trained.yHat[i]? = some row)
    (hg : ¬ AnyGood out.trained.precision row) :
    ∃ d, out.selection1.vals[i]? = some d ∧ MostOftenGood n yBin d := by
  obtain ⟨ht, _, d, hd, h0, h1, _⟩ := pythia_ok h
  refine ⟨d, ?_, argmax_goodMeans ?_ hd⟩
  · rw [h1]
    simp [Sel.vals, hrow, selectRow_none d hg]
  · rintro rfl
    have := (train_done hs ht).rows.2.1
    rw [List.length_eq_zero_iff.1 this] at hrow
    simp at hrow

example : ∃ out, exRun = .ok out ∧ out.selection0 = .flat [0, 1, 0] ∧
    out.selection1 = .flat [0, 1, 0] ∧ out.trained.precision = [1, 1] ∧
    AnyGood out.trained.precision [false, true] ∧ ¬ AnyGood out.trained.precision [false, false] := by
  obtain ⟨out, h, e⟩ := exRun_ok
  have h1 : exRun.toOption.map (·.selection0) = some (.flat [0, 1, 0]) := by decide +kernel
  have h2 : exRun.toOption.map (·.selection1) = some (.flat [0, 1, 0]) := by decide +kernel
  have h3 : exRun.toOption.map (·.trained.precision) = some [1, 1] := by decide +kernel
  rw [e] at h1 h2 h3
  simp only [Option.map_some, Option.some.injEq] at h1 h2 h3
  refine ⟨out, h, h1, h2, h3, ?_, ?_⟩
  · rw [h3]
    exact ⟨1, 1, ⟨rfl, rfl⟩, by norm_num⟩
  · rw [h3]
    rintro ⟨j, p, ⟨h, _⟩, _⟩
    rcases j with _ | _ | j <;> simp at h

/-! ### C65 -/

/-- **C65.**  The selection of an instance for which the first algorithm is recommended and that of
an instance for which none is recommended are the same number. -/
theorem C65_refuted : ∃ (lib : Lib) (labels : List String) (y : List (List Num))
    (yBin : List (List Bool)) (yBest : List Num) (fitted : Nat → Except Err SvmRes) (out : Out),
    pythia lib 2 labels y yBin yBest fitted = .ok out ∧
    ∃ (i j : Nat) (r1 r2 : List Bool), out.trained.yHat[i]? = some r1 ∧ out.trained.yHat[j]? = some r2 ∧
      Recommended out.trained.precision r1 0 ∧ ¬ AnyGood out.trained.precision r2 ∧
      out.selection0.vals[i]? = out.selection0.vals[j]? := by
  obtain ⟨out, h, e⟩ := exRun_ok
  refine ⟨exLib, ["A", "B"], exY, exBin, [20, 40, 70], exFit, out, h, 0, 2, [true, false],
    [false, false], ?_⟩
  have h1 : exRun.toOption.map (·.selection0) = some (.flat [0, 1, 0]) := by decide +kernel
  have h2 : exRun.toOption.map (·.trained.yHat) =
    some [[true, false], [false, true], [false, false]] := by decide +kernel
  have h3 : exRun.toOption.map (·.trained.precision) = some [1, 1] := by decide +kernel
  rw [e] at h1 h2 h3
  simp only [Option.map_some, Option.some.injEq] at h1 h2 h3
  rw [h1, h2, h3]
  refine ⟨rfl, rfl, ⟨1, ⟨rfl, rfl⟩, by norm_num, ?_⟩, ?_, rfl⟩
  · rintro j q ⟨hj, hq⟩
    rcases j with _ | _ | j
    · simp at hq
      exact ⟨le_of_eq hq.symm, fun h => absurd h (by omega)⟩
    · simp at hj
    · simp at hj
  · rintro ⟨j, p, ⟨h, _⟩, _⟩
    rcases j with _ | _ | j <;> simp at h

theorem Recommended.unique {precision : List ℚ} {row : List Bool} {s t : Nat}
    (hs : Recommended precision row s) (ht : Recommended precision row t) : s = t := by
  obtain ⟨p, hp, _, hmax⟩ := hs
  obtain ⟨q, hq, _, hmax'⟩ := ht
  rcases Nat.lt_trichotomy s t with h | h | h
  · have := (hmax' s p hp).2 h
    have := (hmax t q hq).1
    linarith
  · exact h
  · have := (hmax t q hq).2 h
    have := (hmax' s p hp).1
    linarith

theorem Recommended.any {precision : List ℚ} {row : List Bool} {s : Nat}
    (hs : Recommended precision row s) : AnyGood precision row := by
  obtain ⟨p, hp, h0, _⟩ := hs
  exact ⟨s, p, hp, h0⟩

/-- **C65, the true part.**  `selection0` identifies the recommended algorithm when this is not the
first one; 0 means that the first one or none is recommended. -/
theorem C65_partial (h : pythia lib n labels y yBin yBest fitted = .ok out) {i s : Nat}
    {row : List Bool} (hrow : out.trained.yHat[i]? = some row) :
    (0 < s → (out.selection0.vals[i]? = some s ↔ Recommended out.trained.precision row s)) ∧
    (out.selection0.vals[i]? = some 0 ↔
      Recommended out.trained.precision row 0 ∨ ¬ AnyGood out.trained.precision row) := by
  by_cases hg : AnyGood out.trained.precision row
  · obtain ⟨t, h0, _, hr⟩ := C64_recommended h hrow hg
    rw [h0]
    simp only [Option.some.injEq, not_true_eq_false, hg, or_false]
    exact ⟨fun _ => ⟨fun e => e ▸ hr, fun hs => hr.unique hs⟩, fun e => e ▸ hr, fun hs => hr.unique hs⟩
  · obtain ⟨_, _, d, _, h0, _, _⟩ := pythia_ok h
    have e : out.selection0.vals[i]? = some 0 := by
      rw [h0]
      simp [Sel.vals, hrow, selectRow_none d hg]
    rw [e]
    simp only [Option.some.injEq, hg, not_false_eq_true, or_true]
    exact ⟨fun hs => ⟨fun he => absurd he (by omega), fun hr => absurd hr.any hg⟩, trivial⟩

/-! ### C66 -/

/-- The rows of a column that belong to the algorithms show the given measures, in percent. -/
def Shows (lib : Lib) (col : List Num) (measures : List ℚ) : Prop :=
  ∀ (j : Nat) q, measures[j]? = some q → col[j]? = some (lib.round3 (.fin (100 * q)))

theorem shows_append (lib : Lib) (l : List ℚ) (rest : List Num) :
    Shows lib ((l.map (fun q => Num.fin (100 * q)) ++ rest).map lib.round3) l := by
  intro j q hq
  have hj : j < l.length := (List.getElem?_eq_some_iff.1 hq).1
  rw [List.getElem?_map, List.getElem?_append_left (by simpa using hj), List.getElem?_map, hq]
  rfl

/-- **C66.**  The column named accuracy does not show the accuracies. -/
theorem C66_refuted : ∃ (lib : Lib) (labels : List String) (y : List (List Num))
    (yBin : List (List Bool)) (yBest : List Num) (fitted : Nat → Except Err SvmRes) (out : Out),
    pythia lib 2 labels y yBin yBest fitted = .ok out ∧
    ¬ Shows lib out.summary.accuracy out.trained.accuracy ∧
    ¬ Shows lib out.summary.precision out.trained.precision := by
  obtain ⟨out, h, e⟩ := exRun_ok
  refine ⟨exLib, ["A", "B"], exY, exBin, [20, 40, 70], exFit, out, h, ?_⟩
  have h1 : exRun.toOption.map (fun o => (o.summary.accuracy[0]?, o.trained.accuracy[0]?,
      o.summary.precision[0]?, o.trained.precision[0]?)) =
      some (some (.fin 100), some (2/3), some (.fin (200/3)), some 1) := by decide +kernel
  rw [e] at h1
  simp only [Option.map_some, Option.some.injEq, Prod.mk.injEq] at h1
  obtain ⟨a1, a2, a3, a4⟩ := h1
  constructor
  · intro hs
    have := hs 0 _ a2
    rw [a1] at this
    simp [exLib] at this
    norm_num at this
  · intro hs
    have := hs 0 _ a4
    rw [a3] at this
    simp [exLib] at this
    norm_num at this

/-- **C66, what the table shows.**  Recalls are shown as recalls, but the column named accuracy
shows the precisions and the column named precision the accuracies, for every data set. -/
theorem C66_partial (h : pythia lib n labels y yBin yBest fitted = .ok out) :
    Shows lib out.summary.recall out.trained.recall ∧
    Shows lib out.summary.accuracy out.trained.precision ∧
    Shows lib out.summary.precision out.trained.accuracy := by
  obtain ⟨_, _, d, _, h0, h1, hg⟩ := pythia_ok h
  rw [h0, h1] at hg
  simp only [generateSummary, Except.ok.injEq, Prod.mk.injEq] at hg
  rw [← hg.1]
  exact ⟨shows_append _ _ _, shows_append _ _ _, shows_append _ _ _⟩

/-! ### C67 -/

/-- The performance of the selected algorithm on each instance. -/
def selectedPerf (y : List (List Num)) (sel : List Nat) : List Num :=
  (y.zip sel).filterMap fun q => q.1[q.2]?

/-- The performance of the algorithm before the selected one, for the instances whose selection is
not the first algorithm. -/
def precedingPerf (y : List (List Num)) (sel : List Nat) : List Num :=
  (y.zip sel).filterMap fun q => if q.2 = 0 then none else q.1[q.2 - 1]?

/-- **C67.**  The selector's average is not the average performance of the recommended
algorithms. -/
theorem C67_refuted : ∃ (lib : Lib) (labels : List String) (y : List (List Num))
    (yBin : List (List Bool)) (yBest : List Num) (fitted : Nat → Except Err SvmRes) (out : Out),
    pythia lib 2 labels y yBin yBest fitted = .ok out ∧
    out.summary.avgPerf[3]? ≠ some (lib.round3 (nanmean (selectedPerf y out.selection1.vals))) := by
  obtain ⟨out, h, e⟩ := exRun_ok
  refine ⟨exLib, ["A", "B"], exY, exBin, [20, 40, 70], exFit, out, h, ?_⟩
  have h1 : exRun.toOption.map (fun o => decide (o.summary.avgPerf[3]? =
      some (exLib.round3 (nanmean (selectedPerf exY o.selection1.vals))))) = some false := by
    decide +kernel
  rw [e] at h1
  simpa using h1

/-- **C67, what the row aggregates.**  An instance contributes the performance and the goodness of
the algorithm before the recommended one, and nothing when the first one is recommended. -/
theorem C67_partial (h : pythia lib n labels y yBin yBest fitted = .ok out)
    (hs : ∀ i res, fitted i = .ok res → Sized yBin.length res)
    (hy : Rect y n) (hb : Rect yBin n) (hl : y.length = yBin.length) :
    out.summary.avgPerf[n + 1]? =
      some (lib.round3 (nanmean (precedingPerf y out.selection1.vals))) ∧
    out.summary.probGood[n + 1]? = some (lib.round3 (.fin (share (yBin.zip out.selection1.vals)
      fun q => decide (0 < q.2 ∧ q.1[q.2 - 1]? = some true)))) := by
  obtain ⟨ht, _, d, _, h0, h1, hg⟩ := pythia_ok h
  have hrows := (train_done hs ht).rows.2.1
  have hlen : yBin.length = out.selection1.vals.length := by
    rw [h1]
    simp [Sel.vals, hrows]
  generalize hs0 : out.trained.yHat.map (fun r => (selectRow out.trained.precision d r).1) = s0 at h0
  generalize hs1 : out.trained.yHat.map (fun r => (selectRow out.trained.precision d r).2) = s1 at h1
  rw [h1] at hlen
  have hlen : yBin.length = s1.length := hlen
  rw [h0, h1] at hg
  simp only [generateSummary, Except.ok.injEq, Prod.mk.injEq] at hg
  rw [← hg.1, h1]
  simp only [Sel.vals]
  constructor
  · rw [nanmean_congr (blank_filter n y s1 hy (by omega))]
    rw [List.getElem?_map, List.getElem?_append_right (by simp)]
    simp [precedingPerf]
  · rw [pgood_eq hb hlen]
    rw [List.getElem?_map, List.getElem?_append_right (by simp [goodMeans])]
    simp [goodMeans]

example : Rect exY 2 ∧ Rect exBin 2 ∧ exY.length = exBin.length ∧
    precedingPerf exY [0, 1, 0] = [30] ∧ selectedPerf exY [0, 1, 0] = [10, 40, 50] := by
  refine ⟨?_, ?_, rfl, rfl, rfl⟩ <;> intro r hr <;> fin_cases hr <;> rfl

/-! ### C68 -/

/-- **C68.**  With the reported mean and deviation the original coordinates are not restored. -/
theorem C68_refuted : ∃ (l : List ℝ) (mu sigma : ℝ) (z : List ℝ),
    znorm l = some (mu, sigma, z) ∧ z.map (fun v => v * sigma + mu) ≠ l := by
  have hstd : std [(0 : ℝ), 2] = Real.sqrt 2 := by
    norm_num [std, mean]
  have hne : std [(0 : ℝ), 2] ≠ 0 := by
    rw [hstd]
    positivity
  have hm : mean [(0 : ℝ), 2] = 1 := by norm_num [mean]
  refine ⟨[0, 2], 0, 1, [0, 2].map fun v => (v - mean [0, 2]) / std [0, 2], ?_, ?_⟩
  · simp only [znorm, zscore, if_neg hne, Option.map_some, mean_zscore (l := [(0 : ℝ), 2]) (by simp),
      std_zscore hne]
  · rw [hm]
    simp only [List.map_cons, List.map_nil, mul_one, add_zero]
    intro h
    injection h with h _
    have : (0 - 1 : ℝ) / std [0, 2] ≠ 0 := div_ne_zero (by norm_num) hne
    exact this h

/-- **C68, what is reported.**  For every column with variation the reported mean is 0 and the
reported deviation 1, whatever the column; the values that undo the normalisation (the mean and the
deviation of the column itself) are lost. -/
theorem C68_partial {l : List ℝ} {mu sigma : ℝ} {z : List ℝ} (h : znorm l = some (mu, sigma, z)) :
    mu = 0 ∧ sigma = 1 ∧ z.map (fun v => v * std l + mean l) = l := by
  unfold znorm zscore at h
  split at h
  · cases h
  rename_i hne
  simp only [Option.map_some, Option.some.injEq, Prod.mk.injEq] at h
  obtain ⟨h1, h2, h3⟩ := h
  refine ⟨?_, ?_, ?_⟩
  · rw [← h1, mean_zscore (std_ne_zero_ne_nil hne)]
  · rw [← h2, std_zscore hne]
  · rw [← h3, List.map_map]
    conv_rhs => rw [← List.map_id l]
    apply List.map_congr_left
    intro v _
    simp only [Function.comp, id]
    field_simp
    ring

example : ∃ mu sigma z, znorm [(0 : ℝ), 2] = some (mu, sigma, z) := by
  have hne : std [(0 : ℝ), 2] ≠ 0 := by
    have hstd : std [(0 : ℝ), 2] = Real.sqrt 2 := by norm_num [std, mean]
    rw [hstd]
    positivity
  simp only [znorm, zscore, if_neg hne, Option.map_some]
  exact ⟨_, _, _, rfl⟩

/-! ### C97 -/

/-- **C97.**  With a single algorithm the stage never completes, whatever the data and the
predictions. -/
theorem C97_refuted (lib : Lib) (labels : List String) (y : List (List Num))
    (yBin : List (List Bool)) (yBest : List Num) (fitted : Nat → Except Err SvmRes) (out : Out) :
    pythia lib 1 labels y yBin yBest fitted ≠ .ok out := by
  intro h
  exact absurd (pythia_ok h).2.1 (lt_irrefl 1)

/-- **C97, the true part.**  With at least two algorithms the stage completes exactly when every
training succeeds and, for every algorithm, good and bad both occur among the labels and the
cross-validated predictions. -/
theorem C97_partial (hn : 1 < n) : (∃ out, pythia lib n labels y yBin yBest fitted = .ok out) ↔
    ∀ i < n, ∃ res, fitted i = .ok res ∧
      (true ∈ goodColumn yBin i ∨ true ∈ res.ySub) ∧
      (false ∈ goodColumn yBin i ∨ false ∈ res.ySub) := by
  have key := train_isOk (fitted := fitted) (yBin := yBin) (List.range n) (start yBin.length n)
  have key' : (∃ t', train fitted yBin (List.range n) (start yBin.length n) = .ok t') ↔
      ∀ i < n, ∃ res, fitted i = .ok res ∧
      (true ∈ goodColumn yBin i ∨ true ∈ res.ySub) ∧
      (false ∈ goodColumn yBin i ∨ false ∈ res.ySub) := by
    rw [key]
    simp only [List.mem_range, confusion_ok, column_eq]
  rw [← key']
  constructor
  · rintro ⟨out, h⟩
    exact ⟨_, (pythia_ok h).1⟩
  · rintro ⟨t, ht⟩
    unfold pythia
    rw [ht]
    simp only
    unfold determineSelections
    rcases ha : argmax (goodMeans n yBin) with _ | d
    · exfalso
      unfold argmax goodMeans at ha
      split at ha
      · rename_i e
        simp at e
        omega
      · cases ha
    · simp only [hn, if_true, generateSummary]
      exact ⟨_, rfl⟩

example : ∃ out, pythia exLib 2 ["A", "B"] exY exBin [20, 40, 70] exFit = .ok out := by
  obtain ⟨out, h, _⟩ := exRun_ok
  exact ⟨out, h⟩

/-! ### C98 -/

/-- **C98.**  Column `i` of every per-instance output and entry `i` of every list belong to
algorithm `i`; the recorded measures are those of its predictions on all instances. -/
theorem C98_outputs (h : pythia lib n labels y yBin yBest fitted = .ok out)
    (hs : ∀ i res, fitted i = .ok res → Sized yBin.length res) {i : Nat} (hi : i < n) :
    ∃ res, fitted i = .ok res ∧
      (∀ r : Nat, out.trained.ySub[r]?.bind (·[i]?) = res.ySub[r]? ∧
        out.trained.yHat[r]?.bind (·[i]?) = res.yHat[r]? ∧
        out.trained.pr0sub[r]?.bind (·[i]?) = res.pSub[r]? ∧
        out.trained.pr0hat[r]?.bind (·[i]?) = res.pHat[r]?) ∧
      out.trained.boxConsnt[i]? = some res.c ∧ out.trained.kScale[i]? = some res.g ∧
      out.trained.accuracy[i]? = some (specAccuracy (goodColumn yBin i) res.yHat) ∧
      out.trained.precision[i]? = some (specPrecision (goodColumn yBin i) res.yHat) ∧
      out.trained.recall[i]? = some (specRecall (goodColumn yBin i) res.yHat) := by
  obtain ⟨ht, _⟩ := pythia_ok h
  obtain ⟨res, e1, e2, _, e4, e5, e6, e7, e8⟩ := (train_done hs ht).done i hi
  rw [column_eq] at e6 e7 e8
  rw [accuracyScore_eq (by simp [goodColumn, (hs i res e1).1])] at e6
  rw [precisionScore_eq] at e7
  rw [recallScore_eq] at e8
  exact ⟨res, e1, e2, e4, e5, e6, e7, e8⟩

/-- **C98.**  Row `i` of the confusion table counts the true negatives, false positives, false
negatives and true positives of the cross-validated predictions of algorithm `i`, which add up to
the number of instances. -/
theorem C98_confusion (h : pythia lib n labels y yBin yBest fitted = .ok out)
    (hs : ∀ i res, fitted i = .ok res → Sized yBin.length res) {i : Nat} (hi : i < n) :
    ∃ res, fitted i = .ok res ∧ ∃ tn fp fn tp, out.trained.cvcmat[i]? = some [tn, fp, fn, tp] ∧
      tn + fp + fn + tp = yBin.length ∧
      tn = (((goodColumn yBin i).zip res.ySub).filter (fun q => !q.1 && !q.2)).length ∧
      fp = (((goodColumn yBin i).zip res.ySub).filter (fun q => !q.1 && q.2)).length ∧
      fn = (((goodColumn yBin i).zip res.ySub).filter (fun q => q.1 && !q.2)).length ∧
      tp = (((goodColumn yBin i).zip res.ySub).filter (fun q => q.1 && q.2)).length := by
  obtain ⟨ht, _⟩ := pythia_ok h
  obtain ⟨res, e1, _, ⟨cm, hc, hcm⟩, _⟩ := (train_done hs ht).done i hi
  unfold confusion at hc
  split at hc
  · injection hc with hc
    refine ⟨res, e1, _, _, _, _, by rw [hcm, ← hc], ?_, ?_⟩
    · rw [cells_all]
      simp [column, (hs i res e1).2.1]
    · rw [column_eq]
      unfold cells
      refine ⟨?_, ?_, ?_, ?_⟩ <;> congr 1 <;> apply List.filter_congr <;>
        rintro ⟨_ | _, _ | _⟩ _ <;> rfl
  · cases hc

example : ∃ out, exRun = .ok out ∧ out.trained.cvcmat = [[1, 0, 0, 2], [1, 1, 1, 0]] ∧
    out.trained.accuracy = [2 / 3, 1] ∧ out.trained.recall = [1 / 2, 1] := by
  obtain ⟨out, h, e⟩ := exRun_ok
  have h1 : exRun.toOption.map (·.trained.cvcmat) = some [[1, 0, 0, 2], [1, 1, 1, 0]] := by
    decide +kernel
  have h2 : exRun.toOption.map (·.trained.accuracy) = some [2 / 3, 1] := by decide +kernel
  have h3 : exRun.toOption.map (·.trained.recall) = some [1 / 2, 1] := by decide +kernel
  rw [e] at h1 h2 h3
  simp only [Option.map_some, Option.some.injEq] at h1 h2 h3
  exact ⟨out, h, h1, h2, h3⟩

/-! ### C99 -/

/-- **C99.**  The recall shown as the recall of the cross-validated model is not the recall of the
cross-validated predictions. -/
theorem C99_refuted : ∃ (lib : Lib) (labels : List String) (y : List (List Num))
    (yBin : List (List Bool)) (yBest : List Num) (fitted : Nat → Except Err SvmRes) (out : Out),
    pythia lib 2 labels y yBin yBest fitted = .ok out ∧
    ∃ res, fitted 0 = .ok res ∧ out.summary.recall[0]? ≠
      some (lib.round3 (.fin (100 * specRecall (goodColumn yBin 0) res.ySub))) := by
  obtain ⟨out, h, e⟩ := exRun_ok
  refine ⟨exLib, ["A", "B"], exY, exBin, [20, 40, 70], exFit, out, h, _, rfl, ?_⟩
  have h1 : exRun.toOption.map (fun o => decide (o.summary.recall[0]? = some (exLib.round3
      (.fin (100 * specRecall (goodColumn exBin 0) [true, true, false]))))) = some false := by
    decide +kernel
  rw [e] at h1
  simpa using h1

/-- **C99, what is shown.**  It is the recall on the instances the model was trained on. -/
theorem C99_partial (h : pythia lib n labels y yBin yBest fitted = .ok out)
    (hs : ∀ i res, fitted i = .ok res → Sized yBin.length res) {i : Nat} (hi : i < n) :
    ∃ res, fitted i = .ok res ∧ out.summary.recall[i]? =
      some (lib.round3 (.fin (100 * specRecall (goodColumn yBin i) res.yHat))) := by
  obtain ⟨res, e1, _, _, _, _, _, e⟩ := C98_outputs h hs hi
  exact ⟨res, e1, (C66_partial h).1 i _ e⟩

/-! ### C100 -/

/-- **C100.**  Every weight is a positive number. -/
theorem C100_positive {y w : List Num} (h : weights y = .ok w) :
    w.length = y.length ∧ ∀ v ∈ w, v ≠ .nan ∧ Num.lt 0 v = true :=
  weights_pos h

example : (weights [0, 3, 4, 5, .nan]).toOption = some [3, 3, 1, 2, 3] := by decide +kernel

/-- **C100.**  With missing performances, a performance at the mean can weigh more than one further
away from it: the mean of the data is 3, the second value equals it, the third does not. -/
theorem C100_refuted : ∃ (y w : List Num), weights y = .ok w ∧ nanmean y = 3 ∧
    ∃ u v, y[1]? = some 3 ∧ y[2]? = some 4 ∧ w[1]? = some u ∧ w[2]? = some v ∧ v.lt u = true := by
  have h : (weights [0, 3, 4, 5, .nan]).toOption = some [3, 3, 1, 2, 3] := by decide +kernel
  rcases he : weights [0, 3, 4, 5, .nan] with e | w
  · rw [he] at h
    cases h
  · rw [he] at h
    injection h with h
    subst h
    exact ⟨_, _, he, by decide +kernel, 3, 1, rfl, rfl, rfl, rfl, by decide +kernel⟩

/-- **C100, the true part.**  Without missing and infinite performances, the weights exist exactly
when two performances differ, and a performance nearer to the mean never weighs more. -/
theorem C100_partial {l : List ℚ} (hl : l ≠ []) :
    ((∃ w, weights (l.map Num.fin) = .ok w) ↔ ∃ a ∈ l, ∃ b ∈ l, a ≠ b) ∧
    ∀ w, weights (l.map Num.fin) = .ok w → ∀ (i j : Nat) a b, l[i]? = some a → l[j]? = some b →
      |a - l.sum / l.length| ≤ |b - l.sum / l.length| →
      ∃ u v, w[i]? = some (.fin u) ∧ w[j]? = some (.fin v) ∧ 0 < u ∧ u ≤ v := by
  rcases weights_fin hl with ⟨hz, he⟩ | ⟨low, hmem, hlow, hmin, he⟩
  · rw [he]
    refine ⟨⟨fun ⟨_, h⟩ => (nomatch h), ?_⟩, fun _ h => (nomatch h)⟩
    rintro ⟨a, ha, b, hb, hne⟩
    exact absurd ((dists_zero hl).1 hz a ha b hb) hne
  · rw [he]
    refine ⟨⟨fun _ => ?_, fun _ => ⟨_, rfl⟩⟩, ?_⟩
    · by_contra hc
      push Not at hc
      exact hlow ((dists_zero hl).2 (fun a ha b hb => hc a ha b hb) low hmem)
    · intro w hw i j a b hi hj hab
      injection hw with hw
      subst hw
      have hlow0 : 0 < low := by
        obtain ⟨q, _, e⟩ := List.mem_map.1 hmem
        exact lt_of_le_of_ne (e ▸ abs_nonneg _) (Ne.symm hlow)
      have hjm : |b - l.sum / l.length| ∈ dists l := List.mem_map.2 ⟨b, List.mem_of_getElem? hj, rfl⟩
      refine ⟨_, _, by simp only [dists, List.map_map, List.getElem?_map, hi]; rfl,
        by simp only [dists, List.map_map, List.getElem?_map, hj]; rfl, ?_, ?_⟩
      · split
        · exact hlow0
        · rename_i h
          exact lt_of_le_of_ne (abs_nonneg _) (Ne.symm h)
      · split
        · split
          · exact le_refl _
          · rename_i h
            exact hmin _ hjm h
        · rename_i h
          rw [if_neg]
          · exact hab
          · intro h0
            exact h (le_antisymm (h0 ▸ hab) (abs_nonneg _))

example : (weights ([0, 3, 4, 5].map Num.fin)).toOption = some [3, 1, 1, 2] ∧
    ∃ a ∈ [(0 : ℚ), 3, 4, 5], ∃ b ∈ [(0 : ℚ), 3, 4, 5], a ≠ b :=
  ⟨by decide +kernel, 0, by simp, 3, by simp, by norm_num⟩

/-! ### C101 -/

/-- **C101.**  The array of performances passed in is changed. -/
theorem C101_refuted : ∃ (lib : Lib) (labels : List String) (y : List (List Num))
    (yBin : List (List Bool)) (yBest : List Num) (fitted : Nat → Except Err SvmRes) (out : Out),
    pythia lib 2 labels y yBin yBest fitted = .ok out ∧ out.yAfter ≠ y := by
  obtain ⟨out, h, e⟩ := exRun_ok
  refine ⟨exLib, ["A", "B"], exY, exBin, [20, 40, 70], exFit, out, h, ?_⟩
  have h1 : exRun.toOption.map (fun o => decide (o.yAfter = exY)) = some false := by decide +kernel
  rw [e] at h1
  simpa using h1

/-- **C101, the exact effect.**  Every entry becomes NaN except those of the algorithm before the
selected one. -/
theorem C101_partial (h : pythia lib n labels y yBin yBest fitted = .ok out) (hy : Rect y n)
    {i j s : Nat} {v : Num} (hs : out.selection0.vals[i]? = some s)
    (hv : y[i]?.bind (·[j]?) = some v) :
    out.yAfter[i]?.bind (·[j]?) = some (if s = j + 1 then v else .nan) := by
  obtain ⟨_, _, d, _, h0, h1, hg⟩ := pythia_ok h
  generalize hs0 : out.trained.yHat.map (fun r => (selectRow out.trained.precision d r).1) = s0 at h0
  rw [h0] at hs
  simp only [Sel.vals] at hs
  rw [h0, h1] at hg
  simp only [generateSummary, Except.ok.injEq, Prod.mk.injEq] at hg
  rw [← hg.2]
  unfold blank selMatrix
  rw [List.getElem?_zipWith, List.getElem?_map, hs]
  rcases hr : y[i]? with _ | row
  · rw [hr] at hv
    cases hv
  · rw [hr] at hv
    simp only [Option.bind_some] at hv
    have hj : j < n := by
      rw [← hy row (List.mem_of_getElem? hr)]
      exact (List.getElem?_eq_some_iff.1 hv).1
    simp only [Option.map_some, Option.bind_some]
    rw [List.getElem?_zipWith, hv, List.getElem?_map, List.getElem?_range hj]
    simp

example : ∃ out, exRun = .ok out ∧
    out.yAfter = [[.nan, .nan], [30, .nan], [.nan, .nan]] := by
  obtain ⟨out, h, e⟩ := exRun_ok
  have h1 : exRun.toOption.map (·.yAfter) = some [[.nan, .nan], [30, .nan], [.nan, .nan]] := by
    decide +kernel
  rw [e] at h1
  simp only [Option.map_some, Option.some.injEq] at h1
  exact ⟨out, h, h1⟩

/-! ### C102 -/

/-- **C102.**  Pre-calculated hyper-parameters of the required shape make every training fail,
whatever the library, the data and the numbers. -/
theorem C102_refuted (grid : Bool) (svm : Nat → List ℚ → List ℚ → Except Err SvmRes)
    (gen : Nat → List ℚ × List ℚ) (rows : List (List ℚ)) (n i : Nat) (hr : rows.length = n) :
    fit grid svm i (paramSpace gen (checkParams (some (rows, 2)) n) i) =
      .error (if grid then .typeError else .valueError) := by
  simp [checkParams, hr, paramSpace, fit]

/-- **C102.**  So the stage fails as soon as there is an algorithm. -/
theorem C102_stage_refuted (grid : Bool) (svm : Nat → List ℚ → List ℚ → Except Err SvmRes)
    (gen : Nat → List ℚ × List ℚ) (rows : List (List ℚ)) (hr : rows.length = n) (hn : 0 < n) :
    pythia lib n labels y yBin yBest
      (fun i => fit grid svm i (paramSpace gen (checkParams (some (rows, 2)) n) i)) =
      Except.error (if grid then .typeError else .valueError) := by
  obtain ⟨m, rfl⟩ : ∃ m, n = m + 1 := ⟨n - 1, by omega⟩
  unfold pythia
  rw [List.range_succ_eq_map]
  unfold train
  simp only [C102_refuted grid svm gen rows (m + 1) 0 hr]

/-- **C102, the true part.**  Without hyper-parameters, or with a matrix of another shape, the
generated candidates are searched. -/
theorem C102_partial (grid : Bool) (svm : Nat → List ℚ → List ℚ → Except Err SvmRes)
    (gen : Nat → List ℚ × List ℚ) (params : Option (List (List ℚ) × Nat)) (n i : Nat)
    (h : ∀ rows cols, params = some (rows, cols) → ¬ (rows.length = n ∧ cols = 2)) :
    fit grid svm i (paramSpace gen (checkParams params n) i) = svm i (gen i).1 (gen i).2 := by
  rcases params with _ | ⟨rows, cols⟩
  · rfl
  · simp only [checkParams, if_neg (h rows cols rfl)]
    rfl

example : ∀ rows cols, some ([[(1 : ℚ), 2, 3]], 3) = some (rows, cols) →
    ¬ (rows.length = 1 ∧ cols = 2) := by
  intro rows cols h
  injection h with h
  injection h with h1 h2
  omega

/-! ### C103 -/

/-- **C103.**  Every candidate lies between 2^-10 and 2^4, one per sample, and larger samples give
larger candidates. -/
theorem C103_range {samples : List ℝ} (h : ∀ u ∈ samples, 0 ≤ u ∧ u < 1) :
    (generateParams samples).length = samples.length ∧
    (∀ c ∈ generateParams samples, 1 / 1024 ≤ c ∧ c < 16) ∧
    ∀ (i j : Nat) u v, samples[i]? = some u → samples[j]? = some v → u < v →
      ∃ a b, (generateParams samples)[i]? = some a ∧ (generateParams samples)[j]? = some b ∧ a < b := by
  refine ⟨by simp [generateParams], ?_, ?_⟩
  · intro c hc
    obtain ⟨u, hu, rfl⟩ := List.mem_map.1 hc
    obtain ⟨h0, h1⟩ := h u hu
    have e1 : (1 / 1024 : ℝ) = (2 : ℝ) ^ (-10 : ℝ) := by
      rw [show (-10 : ℝ) = ((-10 : ℤ) : ℝ) by norm_num, Real.rpow_intCast]
      norm_num
    have e2 : (16 : ℝ) = (2 : ℝ) ^ (4 : ℝ) := by
      rw [show (4 : ℝ) = ((4 : ℤ) : ℝ) by norm_num, Real.rpow_intCast]
      norm_num
    constructor
    · rw [e1]
      exact Real.rpow_le_rpow_of_exponent_le (by norm_num) (by linarith)
    · rw [e2]
      exact Real.rpow_lt_rpow_of_exponent_lt (by norm_num) (by linarith)
  · intro i j u v hi hj huv
    refine ⟨_, _, by simp only [generateParams, List.getElem?_map, hi]; rfl,
      by simp only [generateParams, List.getElem?_map, hj]; rfl, ?_⟩
    exact Real.rpow_lt_rpow_of_exponent_lt (by norm_num) (by linarith)

example : ∀ u ∈ [(0 : ℝ), 1 / 2], 0 ≤ u ∧ u < 1 := by
  intro u hu
  simp at hu
  rcases hu with rfl | rfl <;> norm_num

end Verif.Pythia
