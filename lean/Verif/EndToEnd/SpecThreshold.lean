import Verif.EndToEnd.Model
/-!
# Specification of builds that differ in what counts as good (C224)
-/
set_option autoImplicit false

namespace Verif.EndToEnd

open Verif (Num)
open Verif.Pipeline (Name outputs)
open Verif.Runner (Dict)

variable {V W : Type}

/-- The two options are the same except for the thresholds: how good is good, and how many good algorithms make
an instance easy. -/
structure SameButThresholds (o o' : Prelim.Opts) : Prop where
  max : o'.maxPerf = o.maxPerf
  abs : o'.absPerf = o.absPerf
  bound : o'.bound = o.bound
  norm : o'.norm = o.norm

/-- The verdicts, what is counted from them, and what PYTHIA and TRACE return. -/
def aboutGood : List Name :=
  [.y_bin, .num_good_algos, .beta] ++ (outputs .pythia).map Prod.fst ++ (outputs .trace).map Prod.fst

/-- Of the libraries of SIFTED only the genetic search and the classifiers it tries look at the verdicts; the
others give the same for all verdicts. -/
def OnlySearchSeesVerdicts (env : Env V W) : Prop :=
  ∀ x y yb yb', (env.lib x y yb').argsort = (env.lib x y yb).argsort ∧
    (env.lib x y yb').silhouette = (env.lib x y yb).silhouette ∧
    (env.lib x y yb').evalLabels = (env.lib x y yb).evalLabels ∧
    (env.lib x y yb').kmeans = (env.lib x y yb).kmeans

/-- The features in the output were selected from clusters, by search. -/
def Searched (d : Dict Name (Val V W)) : Prop := ∃ c, d .clust = some (.verdicts c)

end Verif.EndToEnd
