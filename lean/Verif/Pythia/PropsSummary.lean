import Verif.Pythia.Props
/-!
# The descriptive columns of PYTHIA's summary (C136) and the selector's measures (C67)
-/
set_option autoImplicit false
set_option linter.unusedSectionVars false

namespace Verif.Pythia

open Verif (Num)

variable {lib : Lib} {n : Nat} {labels : List String} {y : List (List Num)}
  {yBin : List (List Bool)} {yBest : List Num} {fitted : Nat → Except Err SvmRes} {out : Out}

/-- The values that are present. -/
def presentValues (l : List Num) : List ℚ := l.filterMap fun
  | .fin q => some q
  | _ => none

/-- `m` is the average of the values present; there is one, and none is infinite. -/
def Average (l : List Num) (m : ℚ) : Prop :=
  .pinf ∉ l ∧ .ninf ∉ l ∧ presentValues l ≠ [] ∧ m = (presentValues l).sum / (presentValues l).length

/-- The mean squared deviation from `m` of the values present. -/
def variance (l : List Num) (m : ℚ) : ℚ :=
  ((presentValues l).map fun q => (q - m) ^ 2).sum / (presentValues l).length

/-- The performances of algorithm `j`. -/
def perfOf (y : List (List Num)) (j : Nat) : List Num := y.filterMap (·[j]?)

/-- The performances of algorithm `j` on the instances where it is predicted good. -/
def perfWherePredicted (y : List (List Num)) (yHat : List (List Bool)) (j : Nat) : List Num :=
  (y.zip yHat).filterMap fun q => if q.2[j]? = some true then q.1[j]? else none

theorem nanmean_average {l : List Num} {m : ℚ} (h : Average l m) : nanmean l = .fin m := by
  obtain ⟨hp, hn, hne, rfl⟩ := h
  rw [← nanmean_fin hne]
  apply nanmean_congr
  have key : ∀ l : List Num, .pinf ∉ l → .ninf ∉ l →
      l.filter present = ((presentValues l).map Num.fin).filter present := by
    intro l
    induction l with
    | nil => intro _ _; rfl
    | cons v l ih =>
      intro h1 h2
      have ih := ih (fun h => h1 (List.mem_cons_of_mem _ h)) (fun h => h2 (List.mem_cons_of_mem _ h))
      cases v with
      | nan => exact ih
      | fin q =>
        change Num.fin q :: l.filter present = Num.fin q :: ((presentValues l).map Num.fin).filter present
        rw [ih]
      | pinf => exact absurd List.mem_cons_self h1
      | ninf => exact absurd List.mem_cons_self h2
  exact key l hp hn

theorem present_filter {l : List Num} (hp : .pinf ∉ l) (hn : .ninf ∉ l) :
    l.filter (fun v => !v.isNan) = (presentValues l).map Num.fin := by
  induction l with
  | nil => rfl
  | cons v l ih =>
    simp only [List.mem_cons, not_or] at hp hn
    rw [List.filter_cons]
    cases v with
    | nan => simpa [presentValues, Num.isNan] using ih hp.2 hn.2
    | ninf => exact absurd rfl hn.1
    | pinf => exact absurd rfl hp.1
    | fin q => simpa [presentValues, Num.isNan] using ih hp.2 hn.2

theorem nanstd_congr (lib : Lib) {l m : List Num} (h : l.filter present = m.filter present) :
    lib.nanstd l = lib.nanstd m := by
  have hm := nanmean_congr h
  unfold Lib.nanstd
  unfold present at h
  simp only [h, hm]

theorem nanstd_average (lib : Lib) {l : List Num} {m : ℚ} (h : Average l m) :
    lib.nanstd l = lib.sqrt (.fin (variance l m)) := by
  unfold Lib.nanstd
  rw [nanmean_average h]
  obtain ⟨hp, hn, hne, -⟩ := h
  simp only [present_filter hp hn, List.map_map, Function.comp_def, List.length_map]
  have e : (presentValues l).map (fun q => (Num.fin q - Num.fin m) * (Num.fin q - Num.fin m)) =
      ((presentValues l).map fun q => (q - m) ^ 2).map Num.fin := by
    rw [List.map_map]
    refine List.map_congr_left fun q _ => ?_
    simp only [Function.comp, pow_two, Num.fin_sub, Num.fin_mul]
  rw [e, show (0 : Num) = Num.fin ((0 : Nat) : ℚ) from rfl, foldl_fin]
  simp only [Nat.cast_zero, zero_add]
  rw [Num.fin_div _ _ (by simpa using hne)]
  rfl

theorem column_perfOf {y : List (List Num)} {n j : Nat} (hy : Rect y n) (hj : j < n) :
    column .nan y j = perfOf y j := by
  unfold column perfOf
  induction y with
  | nil => rfl
  | cons r y ih =>
    have hr : j < r.length := by rw [hy r List.mem_cons_self]; exact hj
    rw [List.map_cons, List.filterMap_cons, ih fun a ha => hy a (List.mem_cons_of_mem _ ha)]
    rw [List.getD_eq_getElem?_getD, List.getElem?_eq_getElem hr]
    rfl

theorem column_blank {n j : Nat} (hj : j < n) : ∀ {y : List (List Num)} {m : List (List Bool)},
    Rect y n → Rect m n →
    (column .nan (blank y m) j).filter present = (perfWherePredicted y m j).filter present
  | [], _, _, _ => rfl
  | _ :: _, [], _, _ => rfl
  | r :: y, s :: m, hy, hm => by
    have hr : j < r.length := by rw [hy r List.mem_cons_self]; exact hj
    have hs : j < s.length := by rw [hm s List.mem_cons_self]; exact hj
    have ih := column_blank hj (fun a ha => hy a (List.mem_cons_of_mem _ ha))
      (fun a ha => hm a (List.mem_cons_of_mem _ ha))
    unfold column blank perfWherePredicted at ih ⊢
    rw [List.zipWith_cons_cons, List.map_cons, List.zip_cons_cons, List.filterMap_cons, List.filter_cons,
      ih, List.getD_eq_getElem?_getD, List.getElem?_zipWith, List.getElem?_eq_getElem hr,
      List.getElem?_eq_getElem hs]
    cases hb : s[j]
    · simp only [Option.getD_some, if_neg (Bool.false_ne_true), Option.some.injEq, Bool.false_eq_true,
        if_false]
      rfl
    · simp only [Option.getD_some, if_true]
      rw [List.filter_cons]

/-! ### C136 -/

/-- **C136, the rows.**  The rows are the algorithms in order, then `Oracle` and `Selector`. -/
theorem C136_rows (h : pythia lib n labels y yBin yBest fitted = .ok out) :
    out.summary.algorithms = labels ++ ["Oracle", "Selector"] := by
  obtain ⟨_, _, d, _, h0, h1, hg⟩ := pythia_ok h
  rw [h0, h1] at hg
  simp only [generateSummary, Except.ok.injEq, Prod.mk.injEq] at hg
  rw [← hg.1]

/-- **C136, average performance.**  Row `j` shows the average of the performances of algorithm `j`
that are known (rounded twice); the oracle's row that of the best performances. -/
theorem C136_average (h : pythia lib n labels y yBin yBest fitted = .ok out) (hy : Rect y n) :
    (∀ j < n, ∀ m, Average (perfOf y j) m →
      out.summary.avgPerf[j]? = some (lib.round3 (lib.round3 (.fin m)))) ∧
    ∀ m, Average yBest m → out.summary.avgPerf[n]? = some (lib.round3 (.fin m)) := by
  obtain ⟨_, _, d, _, h0, h1, hg⟩ := pythia_ok h
  rw [h0, h1] at hg
  simp only [generateSummary, Except.ok.injEq, Prod.mk.injEq] at hg
  rw [← hg.1]
  constructor
  · intro j hj m hm
    simp only
    rw [List.getElem?_map, List.getElem?_append_left (by simpa using hj), List.getElem?_map,
      List.getElem?_map, List.getElem?_range hj]
    simp only [Option.map_some]
    rw [column_perfOf hy hj, nanmean_average hm]
  · intro m hm
    simp only
    rw [List.getElem?_map, List.getElem?_append_right (by simp)]
    simp [nanmean_average hm]

/-- **C136, probability of good.**  Row `j` shows the share of the instances on which algorithm `j`
is good, the oracle's row 1. -/
theorem C136_good (h : pythia lib n labels y yBin yBest fitted = .ok out) :
    (∀ j < n, out.summary.probGood[j]? =
      some (lib.round3 (.fin (share yBin fun r => r[j]? = some true)))) ∧
    out.summary.probGood[n]? = some (lib.round3 1) := by
  obtain ⟨_, _, d, _, h0, h1, hg⟩ := pythia_ok h
  rw [h0, h1] at hg
  simp only [generateSummary, Except.ok.injEq, Prod.mk.injEq] at hg
  rw [← hg.1]
  constructor
  · intro j hj
    have hm : (goodMeans n yBin)[j]? = some (share yBin fun r => r[j]? = some true) := by
      exact (goodMeans_get n yBin j _).2 ⟨hj, rfl⟩
    simp only
    rw [List.getElem?_map, List.getElem?_append_left (by simpa [goodMeans] using hj),
      List.getElem?_map, hm]
    rfl
  · simp only
    rw [List.getElem?_map, List.getElem?_append_right (by simp [goodMeans])]
    simp [goodMeans]

/-- **C136, selected instances.**  Row `j` shows the average performance of algorithm `j` on the
instances on which its model predicts it to be good; the oracle's row is empty. -/
theorem C136_selected (h : pythia lib n labels y yBin yBest fitted = .ok out)
    (hs : ∀ i res, fitted i = .ok res → Sized yBin.length res) (hy : Rect y n) :
    (∀ j < n, ∀ m, Average (perfWherePredicted y out.trained.yHat j) m →
      out.summary.avgSelected[j]? = some (lib.round3 (.fin m))) ∧
    out.summary.avgSelected[n]? = some (lib.round3 .nan) := by
  obtain ⟨ht, _, d, _, h0, h1, hg⟩ := pythia_ok h
  have hrect : Rect out.trained.yHat n := (train_done hs ht).rect.2.1
  rw [h0, h1] at hg
  simp only [generateSummary, Except.ok.injEq, Prod.mk.injEq] at hg
  rw [← hg.1]
  constructor
  · intro j hj m hm
    simp only
    rw [List.getElem?_map, List.getElem?_append_left (by simpa using hj), List.getElem?_map,
      List.getElem?_map, List.getElem?_range hj]
    simp only [Option.map_some]
    rw [nanmean_congr (column_blank hj hy hrect), nanmean_average hm]
  · simp only
    rw [List.getElem?_map, List.getElem?_append_right (by simp)]
    simp

/-- **C136, deviations.**  Row `j` shows the standard deviation (with the division by the number of values)
of the known performances of algorithm `j`, rounded twice, and of those on the instances on which it is
predicted good; the oracle's row that of the best performances, and is empty for the selected instances. -/
theorem C136_deviations (h : pythia lib n labels y yBin yBest fitted = .ok out)
    (hs : ∀ i res, fitted i = .ok res → Sized yBin.length res) (hy : Rect y n) :
    (∀ j < n, ∀ m, Average (perfOf y j) m → out.summary.stdPerf[j]? =
      some (lib.round3 (lib.round3 (lib.sqrt (.fin (variance (perfOf y j) m)))))) ∧
    (∀ m, Average yBest m →
      out.summary.stdPerf[n]? = some (lib.round3 (lib.sqrt (.fin (variance yBest m))))) ∧
    (∀ j < n, ∀ m, Average (perfWherePredicted y out.trained.yHat j) m → out.summary.stdSelected[j]? =
      some (lib.round3 (lib.sqrt (.fin (variance (perfWherePredicted y out.trained.yHat j) m))))) ∧
    out.summary.stdSelected[n]? = some (lib.round3 .nan) := by
  obtain ⟨ht, _, d, _, h0, h1, hg⟩ := pythia_ok h
  have hrect : Rect out.trained.yHat n := (train_done hs ht).rect.2.1
  rw [h0, h1] at hg
  simp only [generateSummary, Except.ok.injEq, Prod.mk.injEq] at hg
  rw [← hg.1]
  refine ⟨?_, ?_, ?_, ?_⟩
  · intro j hj m hm
    simp only
    rw [List.getElem?_map, List.getElem?_append_left (by simpa using hj), List.getElem?_map,
      List.getElem?_map, List.getElem?_range hj]
    simp only [Option.map_some]
    rw [column_perfOf hy hj, nanstd_average lib hm]
  · intro m hm
    simp only
    rw [List.getElem?_map, List.getElem?_append_right (by simp)]
    simp [nanstd_average lib hm]
  · intro j hj m hm
    simp only
    rw [List.getElem?_map, List.getElem?_append_left (by simpa using hj), List.getElem?_map,
      List.getElem?_map, List.getElem?_range hj]
    simp only [Option.map_some]
    rw [nanstd_congr lib (column_blank hj hy hrect), nanstd_average lib hm]
  · simp only
    rw [List.getElem?_map, List.getElem?_append_right (by simp)]
    simp

example : variance (perfOf exY 0) 30 = 800 / 3 := by decide +kernel

/-- **C136, hyper-parameters.**  Row `j` shows the two hyper-parameters of the model of
algorithm `j`. -/
theorem C136_parameters (h : pythia lib n labels y yBin yBest fitted = .ok out)
    (hs : ∀ i res, fitted i = .ok res → Sized yBin.length res) {j : Nat} (hj : j < n) :
    ∃ res, fitted j = .ok res ∧ out.summary.boxConstraint[j]? = some (lib.round3 (.fin res.c)) ∧
      out.summary.kernelScale[j]? = some (lib.round3 (.fin res.g)) := by
  obtain ⟨res, e1, _, e2, e3, _⟩ := C98_outputs h hs hj
  obtain ⟨_, _, d, _, h0, h1, hg⟩ := pythia_ok h
  rw [h0, h1] at hg
  simp only [generateSummary, Except.ok.injEq, Prod.mk.injEq] at hg
  rw [← hg.1]
  refine ⟨res, e1, ?_, ?_⟩
  · simp only
    rw [List.getElem?_map, List.getElem?_append_left
      (by simpa using (List.getElem?_eq_some_iff.1 e2).1), List.getElem?_map, e2]
    rfl
  · simp only
    rw [List.getElem?_map, List.getElem?_append_left
      (by simpa using (List.getElem?_eq_some_iff.1 e3).1), List.getElem?_map, e3]
    rfl

example : Average (perfOf exY 0) 30 ∧ Average [20, .nan, 70] 45 ∧
    Average (perfWherePredicted exY [[true, false], [false, true], [false, false]] 1) 40 := by
  refine ⟨⟨?_, ?_, ?_, ?_⟩, ⟨?_, ?_, ?_, ?_⟩, ?_, ?_, ?_, ?_⟩ <;> decide +kernel
example : ∃ out, exRun = .ok out ∧ out.summary.algorithms = ["A", "B", "Oracle", "Selector"] ∧
    out.summary.probGood.take 3 = [.fin (2 / 3), .fin (1 / 3), 1] ∧
    out.summary.avgSelected.take 3 = [10, 40, .nan] := by
  obtain ⟨out, h, e⟩ := exRun_ok
  have h1 : exRun.toOption.map (·.summary.algorithms) = some ["A", "B", "Oracle", "Selector"] := by
    decide +kernel
  have h2 : exRun.toOption.map (·.summary.probGood.take 3) = some [.fin (2 / 3), .fin (1 / 3), 1] := by
    decide +kernel
  have h3 : exRun.toOption.map (·.summary.avgSelected.take 3) = some [10, 40, .nan] := by
    decide +kernel
  rw [e] at h1 h2 h3
  simp only [Option.map_some, Option.some.injEq] at h1 h2 h3
  exact ⟨out, h, h1, h2, h3⟩

/-! ### C67 -/

theorem pairs_row (s : Nat) (p : Bool × Bool → Bool) (hp : ∀ b, p (b, false) = false) :
    ∀ (r : List Bool) (k : Nat),
    ((r.zip ((List.range' k r.length).map fun j => decide (s = j + 1))).filter p).length =
      if k < s ∧ (r[s - 1 - k]?.any fun b => p (b, true)) then 1 else 0
  | [], k => by simp
  | v :: r, k => by
    rw [List.length_cons, List.range'_succ, List.map_cons, List.zip_cons_cons, List.filter_cons]
    have ih := pairs_row s p hp r (k + 1)
    rcases Nat.lt_trichotomy s (k + 1) with h | h | h
    · have h1 : ¬ (s = k + 1) := by omega
      have h2 : ¬ (k + 1 < s) := by omega
      have h3 : ¬ (k < s) := by omega
      simp [h1, h2, h3, hp] at ih ⊢
      exact ih
    · subst h
      rw [if_neg (by omega)] at ih
      have e : k + 1 - 1 - k = 0 := by omega
      rw [e]
      simp only [decide_true, List.getElem?_cons_zero, Option.any_some, Nat.lt_succ_self, true_and]
      cases hv : p (v, true)
      · simp only [Bool.false_eq_true, if_false]
        exact ih
      · simp only [if_true, List.length_cons]
        rw [ih]
    · have h1 : ¬ (s = k + 1) := by omega
      have h3 : k < s := by omega
      obtain ⟨c, hc⟩ : ∃ c, s - 1 - k = c + 1 := ⟨s - 1 - k - 1, by omega⟩
      have hc' : s - 1 - (k + 1) = c := by omega
      rw [hc'] at ih
      rw [hc, decide_eq_false h1, hp]
      simp only [Bool.false_eq_true, if_false, List.getElem?_cons_succ]
      rw [ih]
      simp [h, h3]

theorem pairs_flat (n : Nat) (p : Bool × Bool → Bool) (hp : ∀ b, p (b, false) = false) :
    ∀ (m : List (List Bool)) (sel : List Nat), Rect m n → m.length = sel.length →
    ((m.flatten.zip (selMatrix n sel).flatten).filter p).length =
      ((m.zip sel).filter fun q => decide (0 < q.2) && (q.1[q.2 - 1]?.any fun b => p (b, true))).length
  | [], _, _, _ => rfl
  | r :: m, [], _, h => by simp at h
  | r :: m, s :: sel, hr, hl => by
    have hrow : r.length = n := hr r List.mem_cons_self
    have ih := pairs_flat n p hp m sel (fun a ha => hr a (List.mem_cons_of_mem _ ha)) (by simpa using hl)
    have hb := pairs_row s p hp r 0
    rw [hrow, ← List.range_eq_range', Nat.sub_zero] at hb
    unfold selMatrix at ih ⊢
    rw [List.map_cons, List.flatten_cons, List.flatten_cons, List.zip_append (by simp [hrow]),
      List.filter_append, List.length_append, ih, hb, List.zip_cons_cons, List.filter_cons]
    by_cases h0 : 0 < s ∧ (r[s - 1]?.any fun b => p (b, true)) = true
    · rw [if_pos h0]
      simp only [h0.1, decide_true, h0.2, Bool.and_true, if_true, List.length_cons]
      omega
    · rw [if_neg h0, if_neg]
      · omega
      · simpa using h0

/-- The number of instances whose selection is not the first algorithm and whose algorithm before
the selected one is good. -/
def precedingGood (yBin : List (List Bool)) (sel : List Nat) : Nat :=
  ((yBin.zip sel).filter fun q => decide (0 < q.2 ∧ q.1[q.2 - 1]? = some true)).length

/-- The number of instances whose selection is not the first algorithm. -/
def notFirst (sel : List Nat) : Nat := (sel.filter fun s => decide (0 < s)).length

/-- The number of good entries. -/
def goodEntries (yBin : List (List Bool)) : Nat := yBin.flatten.count true

/-- **C67, precision and recall of the selector.**  Both count the instances on which the algorithm
*before* the selected one is good; the precision divides by the number of instances whose selection
is not the first algorithm, the recall by the number of all good pairs of instance and algorithm. -/
theorem C67_measures_partial (h : pythia lib n labels y yBin yBest fitted = .ok out)
    (hs : ∀ i res, fitted i = .ok res → Sized yBin.length res) (hb : Rect yBin n) :
    out.summary.precision[n + 1]? = some (lib.round3 (.fin
      (100 * ((precedingGood yBin out.selection0.vals : ℚ) / notFirst out.selection0.vals)))) ∧
    out.summary.recall[n + 1]? = some (lib.round3 (.fin
      (100 * ((precedingGood yBin out.selection0.vals : ℚ) / goodEntries yBin)))) := by
  obtain ⟨ht, _, d, _, h0, h1, hg⟩ := pythia_ok h
  have hinv := train_done hs ht
  have hlen : yBin.length = out.selection0.vals.length := by
    rw [h0]
    simp [Sel.vals, hinv.rows.2.1]
  have hlt : ∀ s ∈ out.selection0.vals, s ≠ 0 → s < n := by
    intro s hs0 hne
    rw [h0] at hs0
    obtain ⟨r, hr, rfl⟩ := List.mem_map.1 hs0
    by_cases ha : AnyGood out.trained.precision r
    · obtain ⟨s, he, hrec⟩ := selectRow_some d ha
      simp only [he]
      obtain ⟨p, ⟨hrow, _⟩, _⟩ := hrec
      rw [← hinv.rect.2.1 r hr]
      exact (List.getElem?_eq_some_iff.1 hrow).1
    · rw [selectRow_none d ha] at hne
      exact absurd rfl hne
  generalize hs0 : out.trained.yHat.map (fun r => (selectRow out.trained.precision d r).1) = s0 at h0
  rw [h0] at hlen hlt
  rw [h0, h1] at hg
  simp only [generateSummary, Except.ok.injEq, Prod.mk.injEq] at hg
  rw [← hg.1, h0]
  change yBin.length = s0.length at hlen
  change ∀ s ∈ s0, s ≠ 0 → s < n at hlt
  simp only [Sel.vals]
  have htp : cells yBin.flatten (selMatrix n s0).flatten true true = precedingGood yBin s0 := by
    unfold cells precedingGood
    rw [pairs_flat n (fun q => decide (q = (true, true))) (by simp) yBin s0 hb hlen]
    congr 1
    apply List.filter_congr
    intro q _
    rcases q.1[q.2 - 1]? with _ | _ | _ <;> simp
  have hpos : ((yBin.flatten.zip (selMatrix n s0).flatten).filter fun q => q.2).length = notFirst s0 := by
    rw [pairs_flat n (fun q => q.2) (by simp) yBin s0 hb hlen]
    unfold notFirst
    have key : ∀ (m : List (List Bool)) (s0 : List Nat), Rect m n → m.length = s0.length →
        (∀ s ∈ s0, s ≠ 0 → s < n) →
        ((m.zip s0).filter fun q => decide (0 < q.2) && (q.1[q.2 - 1]?.any fun _ => true)).length =
          (s0.filter fun s => decide (0 < s)).length := by
      intro m
      induction m with
      | nil =>
        intro s0 _ hl _
        cases s0 with
        | nil => rfl
        | cons s s0 => simp at hl
      | cons r m ih =>
        intro s0 hr hl hlt
        cases s0 with
        | nil => simp at hl
        | cons s s0 =>
          have ih := ih s0 (fun a ha => hr a (List.mem_cons_of_mem _ ha)) (by simpa using hl)
            (fun a ha => hlt a (List.mem_cons_of_mem _ ha))
          rw [List.zip_cons_cons, List.filter_cons, List.filter_cons]
          by_cases h0 : 0 < s
          · have hsr : s - 1 < r.length := by
              have := hlt s List.mem_cons_self (by omega)
              rw [hr r List.mem_cons_self]
              omega
            simp only [h0, decide_true, List.getElem?_eq_getElem hsr, Option.any_some, Bool.and_true,
              if_true, List.length_cons, ih]
          · simp only [h0, decide_false, Bool.false_and, Bool.false_eq_true, if_false, ih]
    exact key yBin s0 hb hlen hlt
  have hgood : ((yBin.flatten.zip (selMatrix n s0).flatten).filter fun q => q.1).length =
      goodEntries yBin := by
    unfold goodEntries
    have hsame : yBin.flatten.length ≤ (selMatrix n s0).flatten.length := by
      have key : ∀ (m : List (List Bool)) (s0 : List Nat), Rect m n → m.length = s0.length →
          m.flatten.length = (selMatrix n s0).flatten.length := by
        intro m
        induction m with
        | nil =>
          intro s0 _ hl
          cases s0 with
          | nil => rfl
          | cons s s0 => simp at hl
        | cons r m ih =>
          intro s0 hr hl
          cases s0 with
          | nil => simp at hl
          | cons s s0 =>
            have ih := ih s0 (fun a ha => hr a (List.mem_cons_of_mem _ ha)) (by simpa using hl)
            unfold selMatrix at ih ⊢
            rw [List.map_cons, List.flatten_cons, List.flatten_cons, List.length_append,
              List.length_append, ih, hr r List.mem_cons_self]
            simp
      exact le_of_eq (key yBin s0 hb hlen)
    rw [List.count_eq_countP, List.countP_eq_length_filter]
    conv_rhs => rw [← List.map_fst_zip hsame, List.filter_map, List.length_map]
    congr 1
    apply List.filter_congr
    intro q _
    rcases q with ⟨_ | _, _⟩ <;> rfl
  constructor
  · have hl : out.trained.accuracy.length = n := hinv.lens.2.2.2.1
    rw [List.getElem?_map, List.getElem?_append_right (by simp [hl])]
    simp only [List.length_map, hl]
    rw [show n + 1 - n = 1 by omega]
    simp only [List.getElem?_cons_succ, List.getElem?_cons_zero, Option.map_some]
    unfold precisionScore
    rw [cells_pos, htp, hpos]
  · have hl : out.trained.recall.length = n := hinv.lens.2.2.2.2.2
    rw [List.getElem?_map, List.getElem?_append_right (by simp [hl])]
    simp only [List.length_map, hl]
    rw [show n + 1 - n = 1 by omega]
    simp only [List.getElem?_cons_succ, List.getElem?_cons_zero, Option.map_some]
    unfold recallScore
    rw [cells_true, htp, hgood]

example : precedingGood exBin [0, 1, 0] = 1 ∧ notFirst [0, 1, 0] = 1 ∧ goodEntries exBin = 3 := by
  decide
example : ∃ out, exRun = .ok out ∧ out.selection0.vals = [0, 1, 0] ∧
    out.summary.precision[3]? = some 100 ∧ out.summary.recall[3]? = some (.fin (100 / 3)) := by
  obtain ⟨out, h, e⟩ := exRun_ok
  have h1 : exRun.toOption.map (·.selection0.vals) = some [0, 1, 0] := by decide +kernel
  have h2 : exRun.toOption.map (·.summary.precision[3]?) = some (some 100) := by decide +kernel
  have h3 : exRun.toOption.map (·.summary.recall[3]?) = some (some (.fin (100 / 3))) := by
    decide +kernel
  rw [e] at h1 h2 h3
  simp only [Option.map_some, Option.some.injEq] at h1 h2 h3
  exact ⟨out, h, h1, h2, h3⟩

end Verif.Pythia
