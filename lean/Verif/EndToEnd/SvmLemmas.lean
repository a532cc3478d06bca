import Verif.EndToEnd.LateLemmas
import Verif.EndToEnd.SpecSvm
import Verif.Pythia.PropsSummary
/-!
# Lemmas about the exported predictions
-/
set_option autoImplicit false
set_option linter.unusedSectionVars false

namespace Verif.EndToEnd

open Verif (Num)
open Verif.Pipeline (Stg Name outputs)
open Verif.Metadata (Table Squeezed)
open Verif.Runner (Dict)
open Verif.Export (Export saveCsv Fits Holds)
open Verif.Pythia (Sized share Average Recommended AnyGood)

variable {V W α : Type} {lower : String → String} {numeric : Squeezed V → Bool} {str : V → V}
  {num : V → Num} {env : Env V W} {le : Nat → Late V W} {t : Table V} {d : Dict Name (Val V W)}
  {tx : Text V α} {files : List (String × Export.File α)}

/-- Entry `j` of row `i` of a matrix of truth values. -/
def truth (m : List (List Bool)) (i j : Nat) : Bool := (m.getD i []).getD j false

theorem truths_of_holds {file : String} {headings names : List String} {m : List (List Bool)}
    (h : Holds files file headings names fun i j => (m.map (·.map tx.bool))[i]?.bind fun r => r[j]?) :
    Truths tx files file headings names (truth m) := by
  obtain ⟨tb, h1, h2, h3, h4⟩ := h
  refine ⟨tb, h1, h2, h3, fun i j hi hj => ?_⟩
  obtain ⟨v, h5, h6⟩ := h4 i j hi hj
  refine ⟨v, h5, ?_⟩
  rw [← h6]
  dsimp only at h6 ⊢
  rw [List.getElem?_map]
  cases hr : m[i]? with
  | none => simp [List.getElem?_map, hr] at h6
  | some r =>
    simp only [List.getElem?_map, hr, Option.map_some, Option.bind_some] at h6 ⊢
    cases hv : r[j]? with
    | none => simp [hv] at h6
    | some w => simp [truth, List.getD_eq_getElem?_getD, hr, hv]

theorem list_eq_range {β : Type} {l : List β} {n : Nat} {f : Nat → β} (hl : l.length = n)
    (h : ∀ i < n, l[i]? = some (f i)) : l = (List.range n).map f := by
  apply List.ext_getElem?
  intro i
  rw [List.getElem?_map]
  by_cases hi : i < n
  · rw [h i hi, List.getElem?_range hi]
    rfl
  · rw [List.getElem?_eq_none (by omega), List.getElem?_eq_none (by simp; omega)]
    rfl

theorem share_map {β γ : Type} (l : List β) (f : β → γ) (g : γ → Bool) :
    share (l.map f) g = share l fun x => g (f x) := by
  simp [share, List.filter_map, Function.comp_def]

/-- The measures of one model in terms of its column of verdicts and its column of predictions. -/
theorem measures_range (n : Nat) (f g : Nat → Bool) :
    Pythia.specPrecision ((List.range n).map f) ((List.range n).map g) =
      share ((List.range n).filter g) f ∧
    Pythia.specAccuracy ((List.range n).map f) ((List.range n).map g) =
      share (List.range n) (fun i => f i == g i) ∧
    Pythia.specRecall ((List.range n).map f) ((List.range n).map g) =
      share ((List.range n).filter f) g := by
  have hz : ((List.range n).map f).zip ((List.range n).map g) =
      (List.range n).map fun i => (f i, g i) := by
    rw [List.zip_map']
  refine ⟨?_, ?_, ?_⟩
  · rw [Pythia.specPrecision, hz, List.filter_map, share_map]
    rfl
  · rw [Pythia.specAccuracy, hz, share_map]
  · rw [Pythia.specRecall, hz, List.filter_map, share_map]
    rfl

theorem truth_get {m : List (List Bool)} {n k : Nat} (hm : m.length = n) (hr : ∀ r ∈ m, r.length = k)
    {i j : Nat} (hi : i < n) (hj : j < k) : ∃ r, m[i]? = some r ∧ r[j]? = some (truth m i j) := by
  subst hm
  refine ⟨m[i], List.getElem?_eq_getElem hi, ?_⟩
  have hl : j < (m[i]).length := by rw [hr _ (List.getElem_mem hi)]; exact hj
  rw [List.getElem?_eq_getElem hl]
  simp [truth, List.getD_eq_getElem?_getD, List.getElem?_eq_getElem hi, List.getElem?_eq_getElem hl]

/-- What C169 and C170 use. -/
theorem late_predictions (hc : Complete env le) (h : Succeeds lower numeric str num env t d)
    (hs : SavedLate tx d files)
    (hfit : ∀ k z y yb i res, (le k).fitted z y yb i = .ok res → Sized yb.length res) :
    ∃ (k : Nat) (junk : α × α) (e : Export α) (z y : Preprocessing.Mat Num) (yb : List (List Bool))
      (yBest : List Num) (o : Pythia.Out), files = (saveCsv junk true e).files ∧ Fits e ∧
      (d .z = some (.table z) ∧ d .y_raw = some (.table y) ∧ d .y_bin = some (.verdicts yb) ∧
        d .y_best = some (.numbers yBest)) ∧
      d .algo_labels = some (.names e.algoLabels) ∧
      e.yRaw = y.rows.map (·.map tx.num) ∧ yb.length = e.instLabels.length ∧
      (∀ r ∈ yb, r.length = e.algoLabels.length) ∧
      o.trained.yHat.length = e.instLabels.length ∧
      (∀ r ∈ o.trained.yHat, r.length = e.algoLabels.length) ∧
      y.ncols = e.algoLabels.length ∧
      Pythia.pythia (le k).pythiaLib y.ncols e.algoLabels y.rows yb yBest ((le k).fitted z y yb) = .ok o ∧
      Predictions tx files e.instLabels e.algoLabels (truth yb) (truth o.trained.yHat)
        (fun i => o.selection0.vals.getD i 0) ∧
      e.pythiaSummary = (summaryFrame o.summary).map fun c => (c.1, c.2.map tx.entry) := by
  obtain ⟨junk, e, rfl, hF, ⟨-, x, -, -, -, p1, -, p2, -⟩, ⟨-, x', -, _, _, c1, -, c2, -⟩,
    k, z, y, yb, yBest, o, q1, q2, q3, q4, q5, q6, q7, q8⟩ := savedLate_common hc h hs
  rw [p1] at c1
  cases c1
  have hne : e.instLabels ≠ [] := by
    intro h0
    have hx := hF.x.1
    rw [h0, p2, List.length_map, List.length_nil] at hx
    have hx' := (List.length_ofFn (f := entries x x.rows.length x.ncols)).symm.trans
      (congrArg List.length c2)
    rw [hx] at hx'
    cases hx'
  have hb : yb.length = e.instLabels.length := by rw [← hF.yBin.1, q3, List.length_map]
  have hbr : ∀ r ∈ yb, r.length = e.algoLabels.length := by
    intro r hr
    have := hF.yBin.2 (r.map tx.bool) (by rw [q3]; exact List.mem_map_of_mem (f := (·.map tx.bool)) hr)
    simpa using this
  have hh : o.trained.yHat.length = e.instLabels.length := by rw [← hF.yHat.1, q6, List.length_map]
  have hhr : ∀ r ∈ o.trained.yHat, r.length = e.algoLabels.length := by
    intro r hr
    have := hF.yHat.2 (r.map tx.bool) (by rw [q6]; exact List.mem_map_of_mem (f := (·.map tx.bool)) hr)
    simpa using this
  have hinv := Pythia.train_done (hfit k z y yb) (Pythia.pythia_ok q5).1
  refine ⟨k, junk, e, z, y, yb, yBest, o, rfl, hF, q1, q4, q2, hb, hbr, hh, hhr, ?_, q5, ⟨?_, ?_, ?_⟩, q8⟩
  · have : o.trained.yHat ≠ [] := by
      intro h0
      rw [h0] at hh
      exact hne (List.length_eq_zero_iff.1 hh.symm)
    obtain ⟨r, hr⟩ := List.exists_mem_of_ne_nil _ this
    rw [← hhr r hr, hinv.rect.2.1 r hr]
  · have := (Export.C111_matrices junk e hF).2.2.2.2.1
    rw [q3] at this
    exact truths_of_holds this
  · have := (Export.C111_matrices junk e hF).2.2.2.2.2
    rw [q6] at this
    exact truths_of_holds this
  · obtain ⟨tb, h1, h2, h3, h4⟩ := (Export.C111_columns junk e hF).2.2.2
    refine ⟨tb, h1, h2, h3, fun i j hi hj => ?_⟩
    obtain ⟨v, h5, h6⟩ := h4 i j hi hj
    refine ⟨v, h5, ?_⟩
    dsimp only at h6 ⊢
    rw [q7, List.getElem?_map] at h6
    rw [List.getD_eq_getElem?_getD]
    cases hv : o.selection0.vals[i]? with
    | none => rw [hv] at h6; cases h6
    | some w => rw [hv] at h6; simpa using h6

/-- The recorded measures are those computed from the two files. -/
theorem late_measures {lib : Pythia.Lib} {n m : Nat} {labels : List String} {y : List (List Num)}
    {yb : List (List Bool)} {yBest : List Num} {fitted : Nat → Except Pythia.Err Pythia.SvmRes}
    {o : Pythia.Out} (hp : Pythia.pythia lib m labels y yb yBest fitted = .ok o)
    (hfit : ∀ i res, fitted i = .ok res → Sized yb.length res) (hb : yb.length = n)
    (hbr : ∀ r ∈ yb, r.length = m) (hh : o.trained.yHat.length = n)
    (hhr : ∀ r ∈ o.trained.yHat, r.length = m) {j : Nat} (hj : j < m) :
    o.trained.precision[j]? = some (precisionOf n (truth yb) (truth o.trained.yHat) j) ∧
    o.trained.accuracy[j]? = some (accuracyOf n (truth yb) (truth o.trained.yHat) j) ∧
    o.trained.recall[j]? = some (recallOf n (truth yb) (truth o.trained.yHat) j) := by
  obtain ⟨res, e1, e2, -, -, e5, e6, e7⟩ := Pythia.C98_outputs hp hfit hj
  have hcol : Pythia.goodColumn yb j = (List.range n).map fun i => truth yb i j := by
    refine list_eq_range (by simp [Pythia.goodColumn, hb]) fun i hi => ?_
    obtain ⟨r, h1, h2⟩ := truth_get hb hbr hi hj
    simp [Pythia.goodColumn, h1, h2]
  have hhat : res.yHat = (List.range n).map fun i => truth o.trained.yHat i j := by
    refine list_eq_range (by rw [(hfit j res e1).1, hb]) fun i hi => ?_
    obtain ⟨r, h1, h2⟩ := truth_get hh hhr hi hj
    rw [← (e2 i).2.1, h1]
    simpa using h2
  rw [hcol, hhat] at e5 e6 e7
  obtain ⟨m1, m2, m3⟩ := measures_range n (fun i => truth yb i j) (fun i => truth o.trained.yHat i j)
  rw [m2] at e5
  rw [m1] at e6
  rw [m3] at e7
  exact ⟨e6, e5, e7⟩

/-- Entry `j` of row `i` of a matrix of numbers. -/
def number (m : List (List Num)) (i j : Nat) : Num := (m.getD i []).getD j .nan

theorem holds_number {file : String} {headings names : List String} {m : List (List Num)}
    (h : Holds files file headings names fun i j => (m.map (·.map tx.num))[i]?.bind fun r => r[j]?) :
    Holds files file headings names fun i j => some (tx.num (number m i j)) := by
  obtain ⟨tb, h1, h2, h3, h4⟩ := h
  refine ⟨tb, h1, h2, h3, fun i j hi hj => ?_⟩
  obtain ⟨v, h5, h6⟩ := h4 i j hi hj
  refine ⟨v, h5, ?_⟩
  rw [← h6]
  dsimp only at h6 ⊢
  rw [List.getElem?_map]
  cases hr : m[i]? with
  | none => simp [List.getElem?_map, hr] at h6
  | some r =>
    simp only [List.getElem?_map, hr, Option.map_some, Option.bind_some] at h6 ⊢
    cases hv : r[j]? with
    | none => simp [hv] at h6
    | some w => simp [number, List.getD_eq_getElem?_getD, hr, hv]

theorem number_get {m : List (List Num)} {n k : Nat} (hm : m.length = n) (hr : ∀ r ∈ m, r.length = k)
    {i j : Nat} (hi : i < n) (hj : j < k) : ∃ r, m[i]? = some r ∧ r[j]? = some (number m i j) := by
  subst hm
  refine ⟨m[i], List.getElem?_eq_getElem hi, ?_⟩
  have hl : j < (m[i]).length := by rw [hr _ (List.getElem_mem hi)]; exact hj
  rw [List.getElem?_eq_getElem hl]
  simp [number, List.getD_eq_getElem?_getD, List.getElem?_eq_getElem hi, List.getElem?_eq_getElem hl]

theorem rows_range {β : Type} (m : List (List β)) :
    m = (List.range m.length).map fun i => m.getD i [] := by
  refine list_eq_range rfl fun i hi => ?_
  rw [List.getD_eq_getElem?_getD, List.getElem?_eq_getElem hi]
  rfl

/-- The performances of an algorithm, instance by instance. -/
theorem perfOf_range {m : List (List Num)} {n k : Nat} (hm : m.length = n) (hr : ∀ r ∈ m, r.length = k)
    {j : Nat} (hj : j < k) : Pythia.perfOf m j = (List.range n).map fun i => number m i j := by
  rw [Pythia.perfOf]
  conv_lhs => rw [rows_range m, hm]
  rw [List.filterMap_map, ← List.filterMap_eq_map]
  refine List.filterMap_congr fun i hi => ?_
  obtain ⟨r, h1, h2⟩ := number_get hm hr (List.mem_range.1 hi) hj
  simp [List.getD_eq_getElem?_getD, h1, h2]

/-- The performances of an algorithm where it is predicted good, instance by instance. -/
theorem perfWhere_range {m : List (List Num)} {p : List (List Bool)} {n k : Nat} (hm : m.length = n)
    (hr : ∀ r ∈ m, r.length = k) (hp : p.length = n) (hpr : ∀ r ∈ p, r.length = k) {j : Nat} (hj : j < k) :
    Pythia.perfWherePredicted m p j =
      ((List.range n).filter fun i => truth p i j).map fun i => number m i j := by
  have hz : m.zip p = (List.range n).map fun i => (m.getD i [], p.getD i []) := by
    conv_lhs => rw [rows_range m, rows_range p, hm, hp]
    rw [List.zip_map']
  rw [Pythia.perfWherePredicted, hz, List.filterMap_map, ← List.filterMap_eq_map,
    ← List.filterMap_eq_filter, List.filterMap_filterMap]
  refine List.filterMap_congr fun i hi => ?_
  obtain ⟨r, h1, h2⟩ := number_get hm hr (List.mem_range.1 hi) hj
  obtain ⟨q, h3, h4⟩ := truth_get hp hpr (List.mem_range.1 hi) hj
  simp only [Function.comp, List.getD_eq_getElem?_getD, h1, h3, Option.getD_some, h2, h4,
    Option.some.injEq, Option.guard]
  by_cases ht : truth p i j = true
  · simp [ht]
  · simp [ht]

theorem share_range {m : List (List Bool)} {n k : Nat} (hm : m.length = n) (hr : ∀ r ∈ m, r.length = k)
    {j : Nat} (hj : j < k) :
    share m (fun r => r[j]? = some true) = share (List.range n) fun i => truth m i j := by
  conv_lhs => rw [rows_range m, hm]
  rw [share_map]
  unfold share
  congr 3
  refine List.filter_congr fun i hi => ?_
  obtain ⟨r, h1, h2⟩ := truth_get hm hr (List.mem_range.1 hi) hj
  simp [List.getD_eq_getElem?_getD, h1, h2]

/-- The table of `svm_table.csv`, column by column. -/
theorem svm_frame (junk : α × α) {e : Export α} (hF : Fits e) {s : Pythia.Summary}
    (hsum : e.pythiaSummary = (summaryFrame s).map fun c => (c.1, c.2.map tx.entry)) :
    Export.onDisk (saveCsv junk true e).files "svm_table.csv" = some (.frame
      ([("Row", s.algorithms.map Entry.word), ("Avg_Perf_all_instances", s.avgPerf.map shown),
        ("Std_Perf_all_instances", s.stdPerf.map shown), ("Probability_of_good", s.probGood.map shown),
        ("Avg_Perf_selected_instances", s.avgSelected.map shown),
        ("Std_Perf_selected_instances", s.stdSelected.map shown),
        ("CV_model_accuracy", s.accuracy.map shown), ("CV_model_precision", s.precision.map shown),
        ("CV_model_recall", s.recall.map shown), ("BoxConstraint", s.boxConstraint.map shown),
        ("KernelScale", s.kernelScale.map shown)].map fun c => (c.1, c.2.map tx.entry))) := by
  obtain ⟨-, -, f, -, -, hf, -, -, g1, -, -, g2⟩ := Export.C111_summaries junk e hF
  have hfr : f = (e.pythiaSummary.map fun c => if c.1 = "Algorithms" then "Row" else c.1).zip
      (e.pythiaSummary.map (·.2)) := by
    rw [← g1, ← g2, List.zip_map', List.map_id']
  rw [hsum] at hfr
  simp only [summaryFrame, List.map_cons, List.map_nil, List.zip_cons_cons, List.zip_nil_right,
    if_true, String.reduceEq, if_false] at hfr
  rw [hf, hfr]
  rfl

theorem under_of {f : Export.Frame α} {heading : String} {col : List Num} {j : Nat} {v : Num}
    (h : (heading, (col.map shown).map tx.entry) ∈ f) (hj : col[j]? = some v) :
    Under f heading j (asShown tx v) := by
  refine ⟨_, h, ?_⟩
  rw [List.getElem?_map, List.getElem?_map, hj]
  simp only [Option.map_some, Option.some.injEq, shown, asShown]
  split <;> rfl

end Verif.EndToEnd
