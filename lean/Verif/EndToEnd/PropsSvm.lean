import Verif.EndToEnd.PropsLate
import Verif.EndToEnd.SvmLemmas
/-!
# The exported predictions (C169, C170)
-/
set_option autoImplicit false
set_option linter.unusedSectionVars false

namespace Verif.EndToEnd

open Verif (Num)
open Verif.Pipeline (Stg Name outputs)
open Verif.Metadata (Table Squeezed)
open Verif.Runner (Dict)
open Verif.Export (Export saveCsv Fits Holds)
open Verif.Pythia (Sized share Average Recommended AnyGood)

variable {V W α : Type} {lower : String → String} {numeric : Squeezed V → Bool} {str : V → V}
  {num : V → Num} {env : Env V W} {le : Nat → Late V W} {t : Table V} {d : Dict Name (Val V W)}
  {tx : Text V α} {files : List (String × Export.File α)}

/-! ### C169 -/

/-- The full claim: `portfolio_svm.csv` counts the algorithms from 1, as `portfolio.csv` does, and 0 means
that no algorithm is advised. -/
def SelectionsReadable : Prop :=
  ∀ (lower : String → String) (numeric : Squeezed Nat → Bool) (num : Nat → Num) (env : Env Nat Unit)
    (le : Nat → Late Nat Unit) (t : Table Nat) (d : Dict Name (Val Nat Unit)) (tx : Text Nat Entry)
    (files : List (String × Export.File Entry)),
    Complete env le → Succeeds lower numeric id num env t d → SavedLate tx d files →
    (∀ k z y yb i res, (le k).fitted z y yb i = .ok res → Sized yb.length res) →
    ∃ names algos b h sel, Predictions tx files names algos b h sel ∧
      ∀ i < names.length,
        (sel i = 0 → NoAdvice names.length algos.length b h i) ∧
        ∀ s, sel i = s + 1 → Advised names.length algos.length b h i s

/-- **C169, the true part.**  The numbers in `portfolio_svm.csv` can be recomputed from
`algorithm_bin.csv` and `algorithm_svm.csv`: for every instance the number is the position, counted from 0,
of the first algorithm with the highest precision among those predicted good, where the precisions are
those of the two files; or it is 0 and no algorithm is predicted good with positive precision.  Missing for
the full property: 0 does not tell the two cases apart, and the numbers are one less than in
`portfolio.csv`. -/
theorem C169_partial (hc : Complete env le) (h : Succeeds lower numeric str num env t d)
    (hs : SavedLate tx d files)
    (hfit : ∀ k z y yb i res, (le k).fitted z y yb i = .ok res → Sized yb.length res) :
    ∃ names algos b p sel, d .algo_labels = some (.names algos) ∧
      Predictions tx files names algos b p sel ∧
      ∀ i < names.length, Advised names.length algos.length b p i (sel i) ∨
        (NoAdvice names.length algos.length b p i ∧ sel i = 0) := by
  obtain ⟨k, junk, e, z, y, yb, yBest, o, rfl, hF, -, hal, -, hb, hbr, hh, hhr, hn, hp, hpred, -⟩ :=
    late_predictions hc h hs hfit
  refine ⟨_, _, _, _, _, hal, hpred, ?_⟩
  intro i hi
  rw [hn] at hp
  have hprec : ∀ j < e.algoLabels.length, o.trained.precision[j]? =
      some (precisionOf e.instLabels.length (truth yb) (truth o.trained.yHat) j) :=
    fun j hj => (late_measures hp (hfit k z y yb) hb hbr hh hhr hj).1
  have hrow : o.trained.yHat[i]? = some (o.trained.yHat[i]'(by omega)) := List.getElem?_eq_getElem _
  generalize o.trained.yHat[i]'(by omega) = row at hrow
  have hget : ∀ j < e.algoLabels.length, row[j]? = some (truth o.trained.yHat i j) := by
    intro j hj
    obtain ⟨r, h1, h2⟩ := truth_get hh hhr hi hj
    rw [hrow] at h1
    cases h1
    exact h2
  have hgood : ∀ (j : Nat) (q : ℚ), Pythia.PredictedGood o.trained.precision row j q ↔
      j < e.algoLabels.length ∧ truth o.trained.yHat i j = true ∧
        q = precisionOf e.instLabels.length (truth yb) (truth o.trained.yHat) j := by
    intro j q
    constructor
    · rintro ⟨h1, h2⟩
      have hj : j < e.algoLabels.length := by
        rw [← hhr row (List.mem_of_getElem? hrow)]
        exact (List.getElem?_eq_some_iff.1 h1).1
      rw [hget j hj] at h1
      rw [hprec j hj] at h2
      exact ⟨hj, by simpa using h1, by simpa using h2.symm⟩
    · rintro ⟨hj, h1, rfl⟩
      exact ⟨by rw [hget j hj, h1], hprec j hj⟩
  by_cases hg : AnyGood o.trained.precision row
  · obtain ⟨s, h0, -, q, hq, hq0, hbest⟩ := Pythia.C64_recommended hp hrow hg
    left
    have hsel : o.selection0.vals.getD i 0 = s := by rw [List.getD_eq_getElem?_getD, h0]; rfl
    rw [hsel]
    obtain ⟨s1, s2, rfl⟩ := (hgood s q).1 hq
    refine ⟨s1, s2, hq0, fun j hj hjt => ?_⟩
    exact hbest j _ ((hgood j _).2 ⟨hj, hjt, rfl⟩)
  · right
    have h0 := ((Pythia.C65_partial (s := 0) hp hrow).2).2 (Or.inr hg)
    refine ⟨fun j hj hjt => ?_, by rw [List.getD_eq_getElem?_getD, h0]; rfl⟩
    by_contra hne0
    refine hg ⟨j, _, (hgood j _).2 ⟨hj, hjt, rfl⟩, lt_of_le_of_ne ?_ (Ne.symm hne0)⟩
    unfold precisionOf share
    positivity

/-! ### C170 -/

/-- `svm_table.csv` beside the other files. -/
def TableAgrees (tx : Text V α) (files : List (String × Export.File α)) (round sqrt : Num → Num)
    (first second : Nat → (Nat → Nat → Bool) → (Nat → Nat → Bool) → Nat → ℚ) : Prop :=
  ∃ names algos r b p sel f, Predictions tx files names algos b p sel ∧
    Holds files "algorithm_raw.csv" algos names (fun i j => some (tx.num (r i j))) ∧
    Export.onDisk files "svm_table.csv" = some (.frame f) ∧
    SvmTable tx round sqrt f algos names.length r b p (first names.length b p) (second names.length b p)

/-- **C170, the true part.**  `svm_table.csv` has one line for each algorithm and two more, and the line of an
algorithm shows the average of its column of `algorithm_raw.csv`, the share of `True` in its column of
`algorithm_bin.csv`, its average performance on the instances marked in `algorithm_svm.csv`, and the recall
computed from the last two files.  Missing for the full property: the accuracy and the precision computed
from the two files stand under each other's heading. -/
theorem C170_partial (hc : Complete env le) (h : Succeeds lower numeric str num env t d)
    (hs : SavedLate tx d files)
    (hfit : ∀ k z y yb i res, (le k).fitted z y yb i = .ok res → Sized yb.length res) :
    ∃ k, TableAgrees tx files (le k).pythiaLib.round3 (le k).pythiaLib.sqrt precisionOf accuracyOf := by
  obtain ⟨k, junk, e, z, y, yb, yBest, o, rfl, hF, -, hal, hraw, hb, hbr, hh, hhr, hn, hp, hpred, hsum⟩ :=
    late_predictions hc h hs hfit
  rw [hn] at hp
  have hy : y.rows.length = e.instLabels.length := by rw [← hF.yRaw.1, hraw, List.length_map]
  have hyr : ∀ r ∈ y.rows, r.length = e.algoLabels.length := by
    intro r hr
    have := hF.yRaw.2 (r.map tx.num) (by rw [hraw]; exact List.mem_map_of_mem (f := (·.map tx.num)) hr)
    simpa using this
  have hf := svm_frame junk hF hsum
  generalize hfr : List.map (fun c : String × List Entry => (c.1, c.2.map tx.entry)) _ = f at hf
  replace hfr := hfr.symm
  simp only [List.map_cons, List.map_nil] at hfr
  have hm := fun j (hj : j < e.algoLabels.length) =>
    late_measures hp (hfit k z y yb) hb hbr hh hhr hj
  obtain ⟨s1, s2, s3⟩ := Pythia.C66_partial hp
  refine ⟨k, _, _, number y.rows, _, _, _, f, hpred, ?_, hf,
    ⟨?_, ?_, ?_, ?_, ?_, ?_, ?_, ?_, ?_, ?_⟩⟩
  · have := (Export.C111_matrices junk e hF).2.2.1
    rw [hraw] at this
    exact holds_number this
  · rw [hfr]
    rfl
  · rw [hfr, Pythia.C136_rows hp]
    simp [Text.entry, Function.comp_def]
  · intro j hj m hav
    rw [← perfOf_range hy hyr hj] at hav
    exact under_of (by rw [hfr]; simp) ((Pythia.C136_average hp hyr).1 j hj m hav)
  · intro j hj
    rw [← share_range hb hbr hj]
    exact under_of (by rw [hfr]; simp) ((Pythia.C136_good hp).1 j hj)
  · intro j hj m hav
    rw [← perfWhere_range hy hyr hh hhr hj] at hav
    exact under_of (by rw [hfr]; simp) ((Pythia.C136_selected hp (hfit k z y yb) hyr).1 j hj m hav)
  · intro j hj m hav
    rw [← perfOf_range hy hyr hj] at hav ⊢
    exact under_of (by rw [hfr]; simp) ((Pythia.C136_deviations hp (hfit k z y yb) hyr).1 j hj m hav)
  · intro j hj m hav
    rw [← perfWhere_range hy hyr hh hhr hj] at hav ⊢
    exact under_of (by rw [hfr]; simp)
      ((Pythia.C136_deviations hp (hfit k z y yb) hyr).2.2.1 j hj m hav)
  · intro j hj
    exact under_of (by rw [hfr]; simp) (s2 j _ (hm j hj).1)
  · intro j hj
    exact under_of (by rw [hfr]; simp) (s3 j _ (hm j hj).2.1)
  · intro j hj
    exact under_of (by rw [hfr]; simp) (s1 j _ (hm j hj).2.2)

/-- **C170, the other figures.**  The line of an algorithm also shows the two hyper-parameters of the model
that was trained for it on the coordinates, the raw performances and the verdicts; the line of the oracle
the average and the deviation of the best performances. -/
theorem C170_parameters (hc : Complete env le) (h : Succeeds lower numeric str num env t d)
    (hs : SavedLate tx d files)
    (hfit : ∀ k z y yb i res, (le k).fitted z y yb i = .ok res → Sized yb.length res) :
    ∃ k z y yb yBest algos f, d .z = some (.table z) ∧ d .y_raw = some (.table y) ∧
      d .y_bin = some (.verdicts yb) ∧ d .y_best = some (.numbers yBest) ∧
      d .algo_labels = some (.names algos) ∧
      Export.onDisk files "svm_table.csv" = some (.frame f) ∧
      (∀ j < algos.length, ∃ res, (le k).fitted z y yb j = .ok res ∧
        Under f "BoxConstraint" j (asShown tx ((le k).pythiaLib.round3 (.fin res.c))) ∧
        Under f "KernelScale" j (asShown tx ((le k).pythiaLib.round3 (.fin res.g)))) ∧
      ∀ m, Average yBest m →
        Under f "Avg_Perf_all_instances" algos.length (asShown tx ((le k).pythiaLib.round3 (.fin m))) ∧
        Under f "Std_Perf_all_instances" algos.length (asShown tx ((le k).pythiaLib.round3
          ((le k).pythiaLib.sqrt (.fin (Pythia.variance yBest m))))) := by
  obtain ⟨k, junk, e, z, y, yb, yBest, o, rfl, hF, ⟨d1, d2, d3, d4⟩, hal, hraw, hb, hbr, hh, hhr, hn, hp,
    hpred, hsum⟩ := late_predictions hc h hs hfit
  rw [hn] at hp
  have hyr : ∀ r ∈ y.rows, r.length = e.algoLabels.length := by
    intro r hr
    have := hF.yRaw.2 (r.map tx.num) (by rw [hraw]; exact List.mem_map_of_mem (f := (·.map tx.num)) hr)
    simpa using this
  refine ⟨k, z, y, yb, yBest, _, _, d1, d2, d3, d4, hal, svm_frame junk hF hsum, ?_, ?_⟩
  · intro j hj
    obtain ⟨res, r1, r2, r3⟩ := Pythia.C136_parameters hp (hfit k z y yb) hj
    exact ⟨res, r1, under_of (by simp) r2, under_of (by simp) r3⟩
  · intro m hm
    exact ⟨under_of (by simp) ((Pythia.C136_average hp hyr).2 m hm),
      under_of (by simp) ((Pythia.C136_deviations hp (hfit k z y yb) hyr).2.1 m hm)⟩

/-! ### The run on the four instances -/

/-- The number of headings and the cells of an array file. -/
def shapeOf (files : List (String × Export.File Entry)) (name : String) :
    Option (Nat × List (List Entry)) :=
  match Export.onDisk files name with
  | some (.array tb) => some (tb.columns.length, tb.rows.map (·.2))
  | _ => none

/-- The table of an unlabelled file. -/
def frameOf (files : List (String × Export.File Entry)) (name : String) : Option (Export.Frame Entry) :=
  match Export.onDisk files name with
  | some (.frame f) => some f
  | _ => none

theorem shape_cells {files : List (String × Export.File Entry)} {file : String} {cols rows : List String}
    {c : Nat → Nat → Option Entry} {k : Nat} {m : List (List Entry)} (h : Holds files file cols rows c)
    (hs : shapeOf files file = some (k, m)) : cols.length = k ∧ rows.length = m.length ∧
      ∀ i j : Nat, i < m.length → j < k → c i j = m[i]?.bind fun r => r[j]? := by
  obtain ⟨tb, h1, h2, h3, h4⟩ := h
  rw [shapeOf, h1] at hs
  simp only [Option.some.injEq, Prod.mk.injEq] at hs
  obtain ⟨rfl, rfl⟩ := hs
  have hr : rows.length = (tb.rows.map (·.2)).length := by rw [← h3]; simp
  refine ⟨by rw [h2], hr, fun i j hi hj => ?_⟩
  obtain ⟨v, h5, h6⟩ := h4 i j (by omega) (by rw [← h2]; exact hj)
  rw [h6, ← h5, List.getElem?_map]
  cases tb.rows[i]? <;> rfl

/-- Truth values as entries. -/
def bools (l : List Bool) : List Entry := l.map lateText.bool

theorem late_sized (k : Nat) (z y : Preprocessing.Mat Num) (yb : List (List Bool)) (i : Nat)
    (res : Pythia.SvmRes) (h : (exLate k).fitted z y yb i = .ok res) : Sized yb.length res := by
  simp only [exLate, Except.ok.injEq] at h
  subst h
  simp [Sized]

/-- The files of the run that show the verdicts, the predictions and the selections. -/
theorem late_run : ∃ d files, Succeeds id (fun _ => false) id lateNum lateEnv lateTable d ∧
    SavedLate lateText d files ∧
    shapeOf files "algorithm_raw.csv" = some (2, [nums [4, 1], nums [1, 5], nums [3, 1], nums [1, 1]]) ∧
    shapeOf files "algorithm_bin.csv" =
      some (2, [bools [true, false], bools [false, true], bools [true, false], bools [false, false]]) ∧
    shapeOf files "algorithm_svm.csv" =
      some (2, [bools [true, true], bools [false, true], bools [true, false], bools [false, false]]) ∧
    shapeOf files "portfolio_svm.csv" = some (1, [nums [0], nums [1], nums [0], nums [0]]) ∧
    shapeOf files "portfolio.csv" = some (1, [nums [1], nums [2], nums [1], nums [1]]) ∧
    (frameOf files "svm_table.csv").map (·.take 2) =
      some [("Row", ["algo_p", "algo_q", "Oracle", "Selector"].map .word),
        ("Avg_Perf_all_instances", nums [9/4, 2, 13/4, 1])] ∧
    ((frameOf files "svm_table.csv").bind (·[6]?)) =
      some ("CV_model_accuracy", nums [100, 50] ++ [.word "", .word ""]) ∧
    ((frameOf files "svm_table.csv").map (·.map (·.1))) = some svmHeadings := by
  have e1 : (lateFiles.bind fun p => shapeOf p.2 "algorithm_raw.csv") =
      some (2, [nums [4, 1], nums [1, 5], nums [3, 1], nums [1, 1]]) := by decide +kernel
  have e2 : (lateFiles.bind fun p => shapeOf p.2 "algorithm_bin.csv") =
      some (2, [bools [true, false], bools [false, true], bools [true, false], bools [false, false]]) := by
    decide +kernel
  have e3 : (lateFiles.bind fun p => shapeOf p.2 "algorithm_svm.csv") =
      some (2, [bools [true, true], bools [false, true], bools [true, false], bools [false, false]]) := by
    decide +kernel
  have e4 : (lateFiles.bind fun p => shapeOf p.2 "portfolio_svm.csv") =
      some (1, [nums [0], nums [1], nums [0], nums [0]]) := by decide +kernel
  have e5 : (lateFiles.bind fun p => shapeOf p.2 "portfolio.csv") =
      some (1, [nums [1], nums [2], nums [1], nums [1]]) := by decide +kernel
  have e6 : (lateFiles.bind fun p => (frameOf p.2 "svm_table.csv").map (·.take 2)) =
      some [("Row", ["algo_p", "algo_q", "Oracle", "Selector"].map .word),
        ("Avg_Perf_all_instances", nums [9/4, 2, 13/4, 1])] := by decide +kernel
  have e7 : (lateFiles.bind fun p => (frameOf p.2 "svm_table.csv").bind (·[6]?)) =
      some ("CV_model_accuracy", nums [100, 50] ++ [.word "", .word ""]) := by decide +kernel
  have e8 : (lateFiles.bind fun p => (frameOf p.2 "svm_table.csv").map (·.map (·.1))) =
      some svmHeadings := by decide +kernel
  cases hz : lateFiles with
  | none => rw [hz] at e1; cases e1
  | some p =>
    obtain ⟨d, files⟩ := p
    rw [hz] at e1 e2 e3 e4 e5 e6 e7 e8
    obtain ⟨h1, h2⟩ := late_saved hz
    exact ⟨d, files, h1, h2, e1, e2, e3, e4, e5, e6, e7, e8⟩

theorem bool_inj {a b : Bool} (h : some (lateText.bool a) = some (lateText.bool b)) : a = b := by
  revert h
  cases a <;> cases b <;> simp [lateText]

/-- What the files of the run determine. -/
theorem late_determined {files : List (String × Export.File Entry)} {names algos : List String}
    {b p : Nat → Nat → Bool} {sel : Nat → Nat}
    (e2 : shapeOf files "algorithm_bin.csv" =
      some (2, [bools [true, false], bools [false, true], bools [true, false], bools [false, false]]))
    (e3 : shapeOf files "algorithm_svm.csv" =
      some (2, [bools [true, true], bools [false, true], bools [true, false], bools [false, false]]))
    (e4 : shapeOf files "portfolio_svm.csv" = some (1, [nums [0], nums [1], nums [0], nums [0]]))
    (h : Predictions lateText files names algos b p sel) :
    names.length = 4 ∧ algos.length = 2 ∧ sel 0 = 0 ∧
      (∀ i < 4, b i 0 = (i == 0 || i == 2) ∧ b i 1 = (i == 1) ∧ p i 0 = (i == 0 || i == 2) ∧
        p i 1 = (i == 0 || i == 1)) := by
  obtain ⟨h1, h2, h3⟩ := shape_cells h.verdicts e2
  obtain ⟨-, -, h4⟩ := shape_cells h.predictions e3
  obtain ⟨-, -, h5⟩ := shape_cells h.selections e4
  refine ⟨h2, h1, ?_, ?_⟩
  · have := h5 0 0 (by decide) (by decide)
    simpa [lateText, nums] using this
  · intro i hi
    obtain rfl | rfl | rfl | rfl : i = 0 ∨ i = 1 ∨ i = 2 ∨ i = 3 := by omega
    · exact ⟨bool_inj (h3 0 0 (by decide) (by decide)), bool_inj (h3 0 1 (by decide) (by decide)),
        bool_inj (h4 0 0 (by decide) (by decide)), bool_inj (h4 0 1 (by decide) (by decide))⟩
    · exact ⟨bool_inj (h3 1 0 (by decide) (by decide)), bool_inj (h3 1 1 (by decide) (by decide)),
        bool_inj (h4 1 0 (by decide) (by decide)), bool_inj (h4 1 1 (by decide) (by decide))⟩
    · exact ⟨bool_inj (h3 2 0 (by decide) (by decide)), bool_inj (h3 2 1 (by decide) (by decide)),
        bool_inj (h4 2 0 (by decide) (by decide)), bool_inj (h4 2 1 (by decide) (by decide))⟩
    · exact ⟨bool_inj (h3 3 0 (by decide) (by decide)), bool_inj (h3 3 1 (by decide) (by decide)),
        bool_inj (h4 3 0 (by decide) (by decide)), bool_inj (h4 3 1 (by decide) (by decide))⟩

/-- **C169.**  The selections are not readable as those of `portfolio.csv`: on the first of the four instances
the first algorithm is predicted good, it always is when predicted so, and the file says 0. -/
theorem C169_refuted : ¬ SelectionsReadable := by
  intro hall
  obtain ⟨d, files, h1, h2, e1, e2, e3, e4, -⟩ := late_run
  obtain ⟨names, algos, b, p, sel, hp, hsel⟩ :=
    hall _ _ _ _ _ _ _ _ _ late_complete h1 h2 late_sized
  obtain ⟨hn, ha, hs, hbp⟩ := late_determined e2 e3 e4 hp
  have := (hsel 0 (by omega)).1 hs 0 (by omega) (by rw [(hbp 0 (by decide)).2.2.1]; rfl)
  rw [hn] at this
  have h0 := hbp 0 (by decide)
  have h1 := hbp 1 (by decide)
  have h2 := hbp 2 (by decide)
  have h3 := hbp 3 (by decide)
  simp [precisionOf, share, List.range_succ, List.filter_cons, h0.1, h0.2.2.1, h1.1, h1.2.2.1, h2.1,
    h2.2.2.1, h3.1, h3.2.2.1] at this

/-- The full claim: the accuracy, the precision and the recall in `svm_table.csv` are those computed from
`algorithm_bin.csv` and `algorithm_svm.csv`. -/
def MeasuresReadable : Prop :=
  ∀ (lower : String → String) (numeric : Squeezed Nat → Bool) (num : Nat → Num) (env : Env Nat Unit)
    (le : Nat → Late Nat Unit) (t : Table Nat) (d : Dict Name (Val Nat Unit)) (tx : Text Nat Entry)
    (files : List (String × Export.File Entry)),
    Complete env le → Succeeds lower numeric id num env t d → SavedLate tx d files →
    (∀ k z y yb i res, (le k).fitted z y yb i = .ok res → Sized yb.length res) →
    ∃ k, TableAgrees tx files (le k).pythiaLib.round3 (le k).pythiaLib.sqrt accuracyOf precisionOf

/-- **C170.**  The prediction for the second algorithm is right on three of the four instances, and the file
shows an accuracy of 50 percent. -/
theorem C170_refuted : ¬ MeasuresReadable := by
  intro hall
  obtain ⟨d, files, h1, h2, e1, e2, e3, e4, -, -, e7, e8⟩ := late_run
  obtain ⟨k, names, algos, r, b, p, sel, f, hp, -, hf, ht⟩ :=
    hall _ _ _ _ _ _ _ _ _ late_complete h1 h2 late_sized
  obtain ⟨hn, ha, hs, hbp⟩ := late_determined e2 e3 e4 hp
  obtain ⟨col, c1, c2⟩ := ht.accuracy 1 (by omega)
  have hff : frameOf files "svm_table.csv" = some f := by rw [frameOf, hf]
  rw [hff] at e7
  simp only [Option.bind_some] at e7
  have hcol : col = nums [100, 50] ++ [.word "", .word ""] := by
    obtain ⟨i, hi, hic⟩ := List.getElem_of_mem c1
    have hh := ht.headings
    have hi11 : i < svmHeadings.length := by rw [← hh]; simpa using hi
    have h6 : svmHeadings[i]? = some "CV_model_accuracy" := by
      rw [← hh, List.getElem?_map, List.getElem?_eq_getElem hi, hic]
      rfl
    have : i = 6 := by
      have hi' : i < 11 := hi11
      interval_cases i <;> simp [svmHeadings] at h6 ⊢
    subst this
    rw [List.getElem?_eq_getElem hi, hic] at e7
    simpa using e7
  have h0 := hbp 0 (by decide)
  have h1 := hbp 1 (by decide)
  have h2 := hbp 2 (by decide)
  have h3 := hbp 3 (by decide)
  have hacc : accuracyOf names.length b p 1 = 3 / 4 := by
    rw [hn]
    simp [accuracyOf, share, List.range_succ, List.filter_cons, h0.2.1, h0.2.2.2, h1.2.1, h1.2.2.2, h2.2.1,
      h2.2.2.2, h3.2.1, h3.2.2.2]
  rw [hcol, hacc] at c2
  simp [nums, asShown, exLate, lateText, Num.isNan] at c2
  norm_num at c2

/-- Non-vacuity: the hypotheses of C169 and C170 hold for the run on the four instances. -/
example : Complete lateEnv exLate ∧ ∃ d files,
    Succeeds id (fun _ => false) id lateNum lateEnv lateTable d ∧ SavedLate lateText d files ∧
    ∀ k z y yb i res, (exLate k).fitted z y yb i = .ok res → Sized yb.length res := by
  obtain ⟨d, files, h1, h2, -⟩ := late_run
  exact ⟨late_complete, d, files, h1, h2, late_sized⟩

end Verif.EndToEnd
