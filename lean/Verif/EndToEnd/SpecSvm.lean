import Verif.EndToEnd.SpecLate
import Verif.Pythia.PropsSummary
/-!
# Specification of the exported predictions
-/
set_option autoImplicit false

namespace Verif.EndToEnd

open Verif (Num)
open Verif.Export (onDisk)
open Verif.Pythia (share)

variable {V α : Type}

/-- Of the `n` instances on which algorithm `j` is predicted good (`h`), the share on which it is good (`b`);
0 if there is none. -/
def precisionOf (n : Nat) (b h : Nat → Nat → Bool) (j : Nat) : ℚ :=
  share ((List.range n).filter fun i => h i j) fun i => b i j

/-- The share of the `n` instances on which the prediction about algorithm `j` is right. -/
def accuracyOf (n : Nat) (b h : Nat → Nat → Bool) (j : Nat) : ℚ :=
  share (List.range n) fun i => b i j == h i j

/-- Of the `n` instances on which algorithm `j` is good, the share on which it is predicted good. -/
def recallOf (n : Nat) (b h : Nat → Nat → Bool) (j : Nat) : ℚ :=
  share ((List.range n).filter fun i => b i j) fun i => h i j

/-- `s` is the first of the `m` algorithms that are predicted good on instance `i` with the highest
precision, which is positive. -/
def Advised (n m : Nat) (b h : Nat → Nat → Bool) (i s : Nat) : Prop :=
  s < m ∧ h i s = true ∧ 0 < precisionOf n b h s ∧
    ∀ j < m, h i j = true → precisionOf n b h j ≤ precisionOf n b h s ∧
      (j < s → precisionOf n b h j < precisionOf n b h s)

/-- No algorithm is predicted good on instance `i` with a positive precision. -/
def NoAdvice (n m : Nat) (b h : Nat → Nat → Bool) (i : Nat) : Prop :=
  ∀ j < m, h i j = true → precisionOf n b h j = 0

/-- The verdicts `b` in `algorithm_bin.csv`, the predictions `h` in `algorithm_svm.csv` and the selections
`sel` in `portfolio_svm.csv`. -/
structure Predictions (tx : Text V α) (files : List (String × Export.File α)) (names algos : List String)
    (b h : Nat → Nat → Bool) (sel : Nat → Nat) : Prop where
  verdicts : Truths tx files "algorithm_bin.csv" algos names b
  predictions : Truths tx files "algorithm_svm.csv" algos names h
  selections : Export.Holds files "portfolio_svm.csv" ["Best_Algorithm"] names
    fun i _ => some (tx.count (sel i))

/-- A number of `svm_table.csv`; NaN is left empty. -/
def asShown (tx : Text V α) (v : Num) : α := if v.isNan then tx.word "" else tx.num v

/-- Line `j` of the table `f` shows `c` under the heading. -/
def Under (f : Export.Frame α) (heading : String) (j : Nat) (c : α) : Prop :=
  ∃ col, (heading, col) ∈ f ∧ col[j]? = some c

/-- The headings of `svm_table.csv`. -/
def svmHeadings : List String :=
  ["Row", "Avg_Perf_all_instances", "Std_Perf_all_instances", "Probability_of_good",
    "Avg_Perf_selected_instances", "Std_Perf_selected_instances", "CV_model_accuracy",
    "CV_model_precision", "CV_model_recall", "BoxConstraint", "KernelScale"]

/-- The table `f` shows, for each of the algorithms, the figures computed from the performances `r`, the
verdicts `b` and the predictions `p` on the `n` instances; `first` and `second` under the headings of the
accuracy and of the precision.  The table is rounded with `round`, `sqrt` is the square root. -/
structure SvmTable (tx : Text V α) (round sqrt : Num → Num) (f : Export.Frame α) (algos : List String) (n : Nat)
    (r : Nat → Nat → Num) (b p : Nat → Nat → Bool) (first second : Nat → ℚ) : Prop where
  headings : f.map (·.1) = svmHeadings
  rows : ("Row", (algos ++ ["Oracle", "Selector"]).map tx.word) ∈ f
  average : ∀ j < algos.length, ∀ m, Pythia.Average ((List.range n).map fun i => r i j) m →
    Under f "Avg_Perf_all_instances" j (asShown tx (round (round (.fin m))))
  good : ∀ j < algos.length,
    Under f "Probability_of_good" j (asShown tx (round (.fin (share (List.range n) fun i => b i j))))
  selected : ∀ j < algos.length, ∀ m,
    Pythia.Average (((List.range n).filter fun i => p i j).map fun i => r i j) m →
    Under f "Avg_Perf_selected_instances" j (asShown tx (round (.fin m)))
  deviation : ∀ j < algos.length, ∀ m, Pythia.Average ((List.range n).map fun i => r i j) m →
    Under f "Std_Perf_all_instances" j (asShown tx (round (round
      (sqrt (.fin (Pythia.variance ((List.range n).map fun i => r i j) m))))))
  selectedDeviation : ∀ j < algos.length, ∀ m,
    Pythia.Average (((List.range n).filter fun i => p i j).map fun i => r i j) m →
    Under f "Std_Perf_selected_instances" j (asShown tx (round (sqrt
      (.fin (Pythia.variance (((List.range n).filter fun i => p i j).map fun i => r i j) m)))))
  accuracy : ∀ j < algos.length,
    Under f "CV_model_accuracy" j (asShown tx (round (.fin (100 * first j))))
  precision : ∀ j < algos.length,
    Under f "CV_model_precision" j (asShown tx (round (.fin (100 * second j))))
  recall : ∀ j < algos.length,
    Under f "CV_model_recall" j (asShown tx (round (.fin (100 * recallOf n b p j))))

end Verif.EndToEnd
