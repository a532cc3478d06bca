import Verif.EndToEnd.SpecThreshold
/-!
# Specification of builds with a looser threshold (C232)
-/
set_option autoImplicit false

namespace Verif.EndToEnd

open Verif (Num)
open Verif.Pipeline (Name)
open Verif.Runner (Dict)

variable {V W : Type}

/-- At least the performances that are good with the threshold of `o` are meant to be good with that of `o'`: when
performances are maximised absolutely a looser threshold is a smaller one, otherwise a larger one. -/
def LooserThreshold (o o' : Prelim.Opts) : Prop :=
  if o.maxPerf = true ∧ o.absPerf = true then Num.le o'.epsilon o.epsilon = true
  else Num.le o.epsilon o'.epsilon = true

/-- Every verdict good of `d` is one of `d'`, for the same instances and algorithms. -/
def VerdictsGrow (d d' : Dict Name (Val V W)) : Prop :=
  ∃ B B', d .y_bin = some (.verdicts B) ∧ d' .y_bin = some (.verdicts B') ∧
    List.Forall₂ (List.Forall₂ fun g g' => g = true → g' = true) B B'

/-- No instance has fewer good algorithms in `d'` than in `d`. -/
def CountsGrow (d d' : Dict Name (Val V W)) : Prop :=
  ∃ N N', d .num_good_algos = some (.counts N) ∧ d' .num_good_algos = some (.counts N') ∧
    List.Forall₂ (· ≤ ·) N N'

/-- Every instance that is easy in `d` is easy in `d'`. -/
def EasyGrow (d d' : Dict Name (Val V W)) : Prop :=
  ∃ F F', d .beta = some (.flags F) ∧ d' .beta = some (.flags F') ∧
    List.Forall₂ (fun e e' => e = true → e' = true) F F'

/-- What is known about the instances and the algorithms before the verdicts. -/
def beforeVerdicts : List Name := [.instlabels, .algo_labels, .s, .x_raw, .y_raw, .y, .y_best, .p]

end Verif.EndToEnd
